import Verif.Props.SummaryTotal

/-!
Further properties of the summary of the current weather (`/repo/examples/summary.cpp`). C88: the highest
and lowest temperature. C91: which of the two reports counts. C94: the time of release. C95: −250 stands
for a value not reported and nothing else.
-/

set_option linter.unusedSectionVars false

namespace Metaf.Props

open Metaf Metaf.Spec Metaf.Summary

variable [FloatIeee]

/-! ### Highest and lowest temperature -/

/-- A group of the lowest and highest temperature. -/
def minMaxOf : Group → Option MinMaxTemperatureGroup
  | .minMaxTemperature g => some g
  | _ => none

theorem minMaxLoop_eq (xs : List GroupInfo) (t : Temperature × Temperature) :
    minMaxLoop xs t = ((lastOf minMaxOf (xs.map (·.group))).map fun g => (g.minTemp, g.maxTemp)).getD t := by
  induction xs generalizing t with
  | nil => rfl
  | cons x xs ih =>
    rw [List.map_cons, lastOf_cons]
    unfold minMaxLoop
    split
    · rename_i g hg
      rw [ih, hg]
      cases lastOf minMaxOf (xs.map (·.group)) <;> rfl
    · rename_i hn
      rw [ih, show minMaxOf x.group = none by unfold minMaxOf; split; exact absurd ‹_› (hn _); rfl]
      cases lastOf minMaxOf (xs.map (·.group)) <;> rfl

theorem forecast_values {r r' : CurrentWeather} {xs : List GroupInfo} {imperial : Bool}
    (h0 : r.airTemperatureLow = -250 ∧ r.airTemperatureHigh = -250)
    (h : temperatureForecastFromTaf r xs imperial = .ok r') :
    r'.airTemperatureLow =
      orNone ((lastOf minMaxOf (xs.map (·.group))).bind fun g => temperatureIn imperial g.minTemp) ∧
    r'.airTemperatureHigh =
      orNone ((lastOf minMaxOf (xs.map (·.group))).bind fun g => temperatureIn imperial g.maxTemp) := by
  obtain ⟨a, ha, h⟩ := bind_ok h
  obtain ⟨b, hb, h⟩ := bind_ok h
  obtain rfl := Except.ok.inj h
  simp only [minMaxLoop_eq] at ha hb
  rw [assign_ok ha, assign_ok hb, h0.1, h0.2]
  cases lastOf minMaxOf (xs.map (·.group)) with
  | none => cases imperial <;> exact ⟨rfl, rfl⟩
  | some g => cases imperial <;> exact ⟨rfl, rfl⟩

theorem releaseTime_high (xs : List GroupInfo) (y m d : Int) (r : CurrentWeather) :
    (reportReleaseTime r xs y m d).airTemperatureLow = r.airTemperatureLow ∧
    (reportReleaseTime r xs y m d).airTemperatureHigh = r.airTemperatureHigh := by
  induction xs generalizing r with
  | nil => exact ⟨rfl, rfl⟩
  | cons x xs ih =>
    unfold reportReleaseTime
    split
    · exact ih _
    · exact ih _

/-- The last step of the summary is the forecast of temperatures, on a summary without one. -/
theorem summary_forecast {metar taf : Str} {y m d : Int} {imperial : Bool} {r : CurrentWeather}
    (h : getCurrentWeather metar taf y m d imperial = .ok r) :
    ∃ r1 tg, parseReport taf .TAF = .ok tg ∧ r1.airTemperatureLow = -250 ∧ r1.airTemperatureHigh = -250 ∧
      temperatureForecastFromTaf r1 tg imperial = .ok r := by
  by_cases hm : ∃ gs, Gives metar .METAR gs
  · obtain ⟨gs, hm⟩ := hm
    obtain ⟨r1, tg, h0, h1, h2⟩ := summary_metar hm h
    obtain ⟨k2, k1, -⟩ := metarLoop_keeps h1
    obtain ⟨e1, e2⟩ := releaseTime_high gs y m d r1
    exact ⟨_, tg, h0, e1.trans k1, e2.trans k2, h2⟩
  · obtain ⟨r1, tg, h0, h1, h2⟩ := summary_taf hm h
    obtain ⟨k2, k1, -⟩ := (tafLoop_keeps h1).1
    obtain ⟨e1, e2⟩ := releaseTime_high tg y m d r1
    exact ⟨_, tg, h0, e1.trans k1, e2.trans k2, h2⟩

/-- C88: the lowest and highest temperature are those of the last group of the TAF report on them,
whatever the METAR report. -/
theorem C88_high_low {metar taf : Str} {y m d : Int} {imperial : Bool} {gs : List GroupInfo}
    {r : CurrentWeather} (ht : Gives taf .TAF gs) (h : getCurrentWeather metar taf y m d imperial = .ok r) :
    r.airTemperatureLow =
      orNone ((lastOf minMaxOf (gs.map (·.group))).bind fun g => temperatureIn imperial g.minTemp) ∧
    r.airTemperatureHigh =
      orNone ((lastOf minMaxOf (gs.map (·.group))).bind fun g => temperatureIn imperial g.maxTemp) := by
  obtain ⟨r1, tg, h0, k1, k2, h2⟩ := summary_forecast h
  rw [parseReport_gives ht] at h0
  obtain rfl := Except.ok.inj h0
  exact forecast_values ⟨k1, k2⟩ h2

/-- C88: without a TAF report there is no lowest and highest temperature. -/
theorem C88_no_high_low {metar taf : Str} {y m d : Int} {imperial : Bool} {r : CurrentWeather}
    (ht : Refused taf .TAF) (h : getCurrentWeather metar taf y m d imperial = .ok r) :
    r.airTemperatureLow = -250 ∧ r.airTemperatureHigh = -250 := by
  obtain ⟨r1, tg, h0, k1, k2, h2⟩ := summary_forecast h
  rw [parseReport_refused ht] at h0
  obtain rfl := Except.ok.inj h0
  exact forecast_values ⟨k1, k2⟩ h2

/-! ### C91 -/

/-- C91: with an accepted METAR report, the TAF report has an effect on the forecast of temperatures
only. -/
theorem C91_metar {metar taf taf' : Str} {y m d : Int} {imperial : Bool} {gs : List GroupInfo}
    {r r' : CurrentWeather} (hm : Gives metar .METAR gs)
    (h : getCurrentWeather metar taf y m d imperial = .ok r)
    (h' : getCurrentWeather metar taf' y m d imperial = .ok r') :
    r' = { r with airTemperatureHigh := r'.airTemperatureHigh, airTemperatureLow := r'.airTemperatureLow } := by
  obtain ⟨r1, tg, -, h1, h2⟩ := summary_metar hm h
  obtain ⟨r1', tg', -, h1', h2'⟩ := summary_metar hm h'
  rw [h1] at h1'
  obtain rfl := Except.ok.inj h1'
  obtain ⟨_, _, h2⟩ := bind_ok h2
  obtain ⟨_, _, h2⟩ := bind_ok h2
  obtain rfl := Except.ok.inj h2
  obtain ⟨_, _, h2'⟩ := bind_ok h2'
  obtain ⟨_, _, h2'⟩ := bind_ok h2'
  obtain rfl := Except.ok.inj h2'
  rfl

/-- C91: a text which is not accepted as a METAR report has no effect. -/
theorem C91_no_metar {metar metar' : Str} (hm : Refused metar .METAR) (hm' : Refused metar' .METAR)
    (taf : Str) (y m d : Int) (imperial : Bool) :
    getCurrentWeather metar taf y m d imperial = getCurrentWeather metar' taf y m d imperial := by
  unfold getCurrentWeather
  rw [parseReport_refused hm, parseReport_refused hm']

/-- C91: a text which is not accepted as a TAF report has no effect. -/
theorem C91_no_taf {taf taf' : Str} (ht : Refused taf .TAF) (ht' : Refused taf' .TAF)
    (metar : Str) (y m d : Int) (imperial : Bool) :
    getCurrentWeather metar taf y m d imperial = getCurrentWeather metar taf' y m d imperial := by
  unfold getCurrentWeather
  rw [parseReport_refused ht, parseReport_refused ht']

/-- C91: without an accepted report all members are those of an empty summary. -/
theorem C91_nothing {metar taf : Str} (hm : Refused metar .METAR) (ht : Refused taf .TAF) (y m d : Int)
    (imperial : Bool) : getCurrentWeather metar taf y m d imperial = .ok {} := by
  unfold getCurrentWeather
  rw [parseReport_refused hm, parseReport_refused ht]
  cases imperial <;> rfl

/-- C91: the METAR report has no effect on the highest and lowest temperature. -/
theorem C91_high_low {metar metar' taf : Str} {y m d y' m' d' : Int} {imperial : Bool}
    {r r' : CurrentWeather} (h : getCurrentWeather metar taf y m d imperial = .ok r)
    (h' : getCurrentWeather metar' taf y' m' d' imperial = .ok r') :
    r'.airTemperatureHigh = r.airTemperatureHigh ∧ r'.airTemperatureLow = r.airTemperatureLow := by
  by_cases ht : ∃ gs, Gives taf .TAF gs
  · obtain ⟨gs, ht⟩ := ht
    obtain ⟨a, b⟩ := C88_high_low ht h
    obtain ⟨a', b'⟩ := C88_high_low ht h'
    rw [a, b, a', b']
    exact ⟨rfl, rfl⟩
  · obtain ⟨a, b⟩ := C88_no_high_low ht h
    obtain ⟨a', b'⟩ := C88_no_high_low ht h'
    rw [a, b, a', b']
    exact ⟨rfl, rfl⟩

theorem last_temperature (gs : List Group) : (∀ g ∈ gs, temperatureGroupOf g = none) ∨
    ∃ before g t after, gs = before ++ g :: after ∧ temperatureGroupOf g = some t ∧
      ∀ g' ∈ after, temperatureGroupOf g' = none := by
  induction gs with
  | nil => exact .inl (fun _ h => nomatch h)
  | cons x gs ih =>
    rcases ih with h | ⟨b, g, t, a, rfl, h1, h2⟩
    · cases e : temperatureGroupOf x with
      | none => exact .inl (List.forall_mem_cons.mpr ⟨e, h⟩)
      | some t => exact .inr ⟨[], x, t, gs, rfl, e, h⟩
    · exact .inr ⟨x :: b, g, t, a, rfl, h1, h2⟩

theorem perceived_unique {imperial : Bool} {gs : List Group} {r r' : CurrentWeather}
    (h : Measured imperial gs r) (h' : Measured imperial gs r') :
    r'.perceivedTemperature = r.perceivedTemperature := by
  rcases last_temperature gs with h1 | ⟨b, g, t, a, e, h1, h2⟩
  · rw [h.noPerceivedTemperature h1, h'.noPerceivedTemperature h1]
  · rw [h.perceivedTemperature b g t a e h1 h2, h'.perceivedTemperature b g t a e h1 h2]

/-- C91: what follows the first trend of the METAR report has no effect, but for a time of release. -/
theorem C91_trend {metar metar' taf : Str} {y m d : Int} {imperial : Bool} {gs gs' : List GroupInfo}
    {r r' : CurrentWeather} (hm : Gives metar .METAR gs) (hm' : Gives metar' .METAR gs')
    (he : beforeTrend (gs.map (·.group)) = beforeTrend (gs'.map (·.group)))
    (h : getCurrentWeather metar taf y m d imperial = .ok r)
    (h' : getCurrentWeather metar' taf y m d imperial = .ok r') :
    r'.windDirection = r.windDirection ∧ r'.isWindVariable = r.isWindVariable ∧
    r'.windSpeed = r.windSpeed ∧ r'.gustSpeed = r.gustSpeed ∧ r'.visibility = r.visibility ∧
    r'.cloud = r.cloud ∧ r'.isStormClouds = r.isStormClouds ∧ r'.weather = r.weather ∧
    r'.airTemperature = r.airTemperature ∧ r'.relativeHumidity = r.relativeHumidity ∧
    r'.atmosphericPressure = r.atmosphericPressure ∧ r'.perceivedTemperature = r.perceivedTemperature := by
  obtain ⟨s, t⟩ := C87_metar hm h
  obtain ⟨s', t'⟩ := C87_metar hm' h'
  rw [← he] at s' t'
  exact ⟨s'.windDirection.trans s.windDirection.symm,
    Bool.eq_iff_iff.mpr (s'.isWindVariable.trans s.isWindVariable.symm),
    s'.windSpeed.trans s.windSpeed.symm, s'.gustSpeed.trans s.gustSpeed.symm,
    s'.visibility.trans s.visibility.symm, s'.cloud.trans s.cloud.symm,
    Bool.eq_iff_iff.mpr (s'.isStormClouds.trans s.isStormClouds.symm), s'.weather.trans s.weather.symm,
    t'.airTemperature.trans t.airTemperature.symm, t'.relativeHumidity.trans t.relativeHumidity.symm,
    t'.atmosphericPressure.trans t.atmosphericPressure.symm, perceived_unique t t'⟩

/-! ### C94 -/

/-- What the members on the time of release are, given the groups of the report and the current date. -/
structure Released (gs : List Group) (ref : Date) (r : CurrentWeather) : Prop where
  missing : (∀ g ∈ gs, timeValue g = none) → r.updateYear = -250 ∧ r.updateMonth = -250 ∧
    r.updateDay = -250 ∧ r.updateHour = -250 ∧ r.updateMinute = -250
  time : ∀ t, lastOf timeValue gs = some t → r.updateHour = t.hourValue ∧ r.updateMinute = t.minuteValue
  date : ∀ t, lastOf timeValue gs = some t → ∃ date : Date, r.updateYear = date.year ∧
    r.updateMonth = date.month ∧ r.updateDay = date.day ∧ t.dayValue = some date.day ∧
    1 ≤ date.month ∧ date.month ≤ 12 ∧ NotLater date ref ∧
    ∀ other : Date, other.day = date.day → 1 ≤ other.month → other.month ≤ 12 → NotLater other ref →
      NotLater other date

/-- The members on the time of release. -/
def updated (r : CurrentWeather) : Int × Int × Int × Int × Int :=
  (r.updateYear, r.updateMonth, r.updateDay, r.updateHour, r.updateMinute)

theorem releaseTime_eq (xs : List GroupInfo) (y m d : Int) (r : CurrentWeather) :
    updated (reportReleaseTime r xs y m d) =
      ((lastOf timeValue (xs.map (·.group))).map fun t =>
        let date := t.dateBeforeRef ⟨toUnsigned y, toUnsigned m, toUnsigned d⟩
        (toSigned date.year, toSigned date.month, toSigned date.day, toSigned t.hourValue,
          toSigned t.minuteValue)).getD (updated r) := by
  induction xs generalizing r with
  | nil => rfl
  | cons x xs ih =>
    rw [List.map_cons, lastOf_cons]
    unfold reportReleaseTime
    split
    · rename_i g hg
      rw [ih, hg]
      cases lastOf timeValue (xs.map (·.group)) <;> rfl
    · rename_i hn
      rw [ih, show timeValue x.group = none by unfold timeValue; split; exact absurd ‹_› (hn _); rfl]
      cases lastOf timeValue (xs.map (·.group)) <;> rfl

theorem lastOf_mem {α : Type} {f : Group → Option α} {gs : List Group} {a : α} (h : lastOf f gs = some a) :
    ∃ g ∈ gs, f g = some a := by
  unfold lastOf at h
  obtain ⟨g, hg, hf⟩ := List.exists_of_findSome?_eq_some h
  exact ⟨g, List.mem_reverse.mp hg, hf⟩

theorem lastOf_none {α : Type} {f : Group → Option α} {gs : List Group} :
    lastOf f gs = none ↔ ∀ g ∈ gs, f g = none := by
  unfold lastOf
  rw [List.findSome?_eq_none_iff]
  simp

theorem toUnsigned_nat {n : Nat} (h : n < 2147483648) : toUnsigned (n : Int) = n := by
  unfold toUnsigned uintRange
  omega

theorem released_of {xs : List GroupInfo} {y m d : Nat} {r0 r : CurrentWeather}
    (hm : ∀ g ∈ xs.map (·.group), Modest g) (hy : 1 ≤ y) (hy' : y < 2147483648) (hm1 : 1 ≤ m) (hm2 : m ≤ 12)
    (hd : d < 2147483648) (h0 : updated r0 = (-250, -250, -250, -250, -250))
    (hr : updated r = updated (reportReleaseTime r0 xs y m d)) :
    Released (xs.map (·.group)) ⟨y, m, d⟩ r := by
  rw [releaseTime_eq, h0, toUnsigned_nat hy', toUnsigned_nat (by omega : m < 2147483648),
    toUnsigned_nat hd] at hr
  have key : ∀ t, lastOf timeValue (xs.map (·.group)) = some t →
      ∃ day hour minute, day < 100 ∧ hour < 100 ∧ minute < 100 ∧ t = ⟨some day, hour, minute⟩ := by
    intro t ht
    obtain ⟨g, hg, hf⟩ := lastOf_mem ht
    unfold timeValue at hf
    split at hf
    · obtain rfl := Option.some.inj hf
      exact hm _ hg
    · cases hf
  refine ⟨fun h => ?_, fun t ht => ?_, fun t ht => ?_⟩
  · rw [lastOf_none.mpr h] at hr
    simpa [updated] using hr
  · obtain ⟨day, hour, minute, k1, k2, k3, rfl⟩ := key t ht
    rw [ht] at hr
    simp only [Option.map_some, Option.getD_some, updated, Prod.mk.injEq] at hr
    rw [hr.2.2.2.1, hr.2.2.2.2, toSigned_small (by omega), toSigned_small (by omega)]
    exact ⟨rfl, rfl⟩
  · obtain ⟨day, hour, minute, k1, k2, k3, rfl⟩ := key t ht
    rw [ht] at hr
    simp only [Option.map_some, Option.getD_some, updated, Prod.mk.injEq] at hr
    obtain ⟨e1, e2, e3, -, -⟩ := hr
    obtain ⟨f1, f2, f3, f4, f5, f6⟩ := C26_date_partial ⟨some day, hour, minute⟩ ⟨y, m, d⟩ day rfl hy
      (by simp only; omega) hm1 hm2
    generalize (⟨some day, hour, minute⟩ : MetafTime).dateBeforeRef ⟨y, m, d⟩ = date at *
    have hyear : date.year ≤ y := by
      rcases f2 with h | ⟨h, -⟩
      · exact h.le
      · exact h.le
    rw [toSigned_small (by omega)] at e1
    rw [toSigned_small (by omega)] at e2
    rw [toSigned_small (by omega)] at e3
    refine ⟨date, e1, e2, e3, by rw [f1], f4, f5, f2, fun o ho => f6 o (by rw [ho, f1])⟩

/-- C94: with an accepted METAR report, the time of release is that of this report: the hour and minute
written, and the latest date with the day written which is not after the date given. -/
theorem C94_metar {metar taf : Str} {y m d : Nat} {imperial : Bool} {gs : List GroupInfo}
    {r : CurrentWeather} (hm : Gives metar .METAR gs)
    (hy : 1 ≤ y) (hy' : y < 2147483648) (hm1 : 1 ≤ m) (hm2 : m ≤ 12) (hd : d < 2147483648)
    (h : getCurrentWeather metar taf y m d imperial = .ok r) :
    Released (gs.map (·.group)) ⟨y, m, d⟩ r := by
  obtain ⟨r1, tg, -, h1, h2⟩ := summary_metar hm h
  obtain ⟨-, -, k1, k2, k3, k4, k5⟩ := metarLoop_keeps h1
  refine released_of (gives_modest hm) hy hy' hm1 hm2 hd (r0 := r1) ?_ ?_
  · simp only [updated, k1, k2, k3, k4, k5]; rfl
  · obtain ⟨_, _, h2⟩ := bind_ok h2
    obtain ⟨_, _, h2⟩ := bind_ok h2
    obtain rfl := Except.ok.inj h2
    rfl

/-- C94: without one, it is that of the TAF report. -/
theorem C94_taf {metar taf : Str} {y m d : Nat} {imperial : Bool} {gs : List GroupInfo}
    {r : CurrentWeather} (hm : Refused metar .METAR) (ht : Gives taf .TAF gs)
    (hy : 1 ≤ y) (hy' : y < 2147483648) (hm1 : 1 ≤ m) (hm2 : m ≤ 12) (hd : d < 2147483648)
    (h : getCurrentWeather metar taf y m d imperial = .ok r) :
    Released (gs.map (·.group)) ⟨y, m, d⟩ r := by
  obtain ⟨r1, tg, h0, h1, h2⟩ := summary_taf hm h
  rw [parseReport_gives ht] at h0
  obtain rfl := Except.ok.inj h0
  obtain ⟨-, -, k1, k2, k3, k4, k5⟩ := (tafLoop_keeps h1).1
  refine released_of (gives_modest ht) hy hy' hm1 hm2 hd (r0 := r1) ?_ ?_
  · simp only [updated, k1, k2, k3, k4, k5]; rfl
  · obtain ⟨_, _, h2⟩ := bind_ok h2
    obtain ⟨_, _, h2⟩ := bind_ok h2
    obtain rfl := Except.ok.inj h2
    rfl

/-! ### C95 -/

theorem part_range {q : Rat} {lo hi : Int} (h0 : lo ≤ 0) (h1 : 0 ≤ hi) (hl : (lo : Rat) - 1 < q)
    (hh : q < hi + 1) : lo ≤ integerPart q ∧ integerPart q ≤ hi := by
  rw [← trunc_eq]
  split
  · rename_i hq
    have : ⌊-q⌋ < -lo + 1 := Int.floor_lt.mpr (by push_cast; linarith)
    have : 0 ≤ ⌊-q⌋ := Int.floor_nonneg.mpr (by linarith)
    rw [show (-q).floor = ⌊-q⌋ from rfl]
    omega
  · rename_i hq
    have : ⌊q⌋ < hi + 1 := Int.floor_lt.mpr (by push_cast; linarith)
    have : 0 ≤ ⌊q⌋ := Int.floor_nonneg.mpr (by linarith)
    rw [show q.floor = ⌊q⌋ from rfl]
    omega

theorem speed_range {imperial : Bool} {s : Speed} (h : ∀ n, s.speedValue = some n → n < 1000) {v : Int}
    (hv : speedIn imperial s = some v) : 0 ≤ v ∧ v ≤ 3600 := by
  obtain ⟨n, w⟩ := s
  cases n with
  | none => cases imperial <;> cases hv
  | some n =>
    have hn : n < 1000 := h n rfl
    unfold speedIn at hv
    generalize hu : (if imperial = true then SpeedUnit.MILES_PER_HOUR else .KILOMETERS_PER_HOUR) = u at hv
    obtain ⟨q, hq, hw⟩ := C31_speed_value n (by omega) w u
    rw [hq] at hv
    obtain rfl := Option.some.inj hv
    unfold Within at hw
    have hw := abs_le.mp hw
    have h1 : (n : Rat) ≤ 999 := by exact_mod_cast (by omega : n ≤ 999)
    have h0 : (0 : Rat) ≤ n := by positivity
    have : 0 ≤ (n : Rat) * (mpsPer w / mpsPer u) ∧ (n : Rat) * (mpsPer w / mpsPer u) ≤ 3597 := by
      cases imperial <;> subst hu <;> cases w <;> norm_num [mpsPer] <;> linarith
    refine part_range (lo := 0) (hi := 3600) (by omega) (by omega) ?_ ?_ <;> push_cast <;>
      norm_num at hw ⊢ <;> linarith [hw.1, hw.2, this.1, this.2]

theorem distance_range {imperial : Bool} {x : Distance} (h : ∀ n, x.dist = some n →
    n ≤ 10000 ∨ (x.distUnit = .STATUTE_MILES ∧ n ≤ 2000000)) {v : Int}
    (hv : distanceIn imperial x = some v) : 0 ≤ v ∧ v ≤ 330000 := by
  obtain ⟨m, n, w⟩ := x
  cases n with
  | none => cases imperial <;> cases hv
  | some n =>
    have hn := h n rfl
    unfold distanceIn at hv
    generalize hu : (if imperial = true then DistanceUnit.STATUTE_MILES else .METERS) = u at hv
    obtain ⟨q, hq, hw⟩ := C31_distance_value m n (by omega) w u
    rw [hq] at hv
    obtain rfl := Option.some.inj hv
    unfold Within at hw
    have hw := abs_le.mp hw
    have h0 : (0 : Rat) ≤ n := by positivity
    have : 0 ≤ storedAmount n w * (metersPer w / metersPer u) ∧
        storedAmount n w * (metersPer w / metersPer u) ≤ 322000 := by
      rcases hn with hn | ⟨rfl, hn⟩
      · have h1 : (n : Rat) ≤ 10000 := by exact_mod_cast hn
        cases imperial <;> subst hu <;> cases w <;> norm_num [metersPer, storedAmount] <;>
          first | linarith | (constructor <;> linarith)
      · have h1 : (n : Rat) ≤ 2000000 := by exact_mod_cast hn
        cases imperial <;> subst hu <;> norm_num [metersPer, storedAmount] <;>
          first | linarith | (constructor <;> linarith)
    refine part_range (lo := 0) (hi := 330000) (by omega) (by omega) ?_ ?_ <;> push_cast <;>
      norm_num at hw ⊢ <;> linarith [hw.1, hw.2, this.1, this.2]

/-- The lowest whole number of degrees a report can hold. -/
def lowestDegrees (imperial : Bool) : Int := if imperial then -147 else -99

/-- The highest whole number of degrees a report can hold. -/
def highestDegrees (imperial : Bool) : Int := if imperial then 211 else 99

/-- A temperature in degrees Fahrenheit. -/
theorem fahrenheit_near {t : Temperature} {n : Int} (h : tenths t = some n) (hn : |n| ≤ 1000) :
    ∃ q, t.toUnit .F = some q ∧ |q - ((n : Rat) / 10 * (9 / 5) + 32)| ≤ 1 / 10000 := by
  have hc := temperature_eq h hn
  have hv := value_near hn
  have hb := value_bound hn
  generalize f32 ((n : Rat) * Temperature.preciseValuePrecision) = c at *
  refine ⟨f32 (f64 (f64 (c * f64 (18 / 10)) + 32)), ?_, ?_⟩
  · unfold Temperature.toUnit at hc ⊢
    cases ht : t.temperature with
    | none => rw [ht] at hc; cases hc
    | some x =>
      rw [ht] at hc
      obtain rfl := Option.some.inj hc
      rfl
  · have hn' : |(n : Rat)| ≤ 1000 := by exact_mod_cast hn
    have hM : |(n : Rat) / 10| ≤ 100 := by
      rw [abs_div]; norm_num; linarith
    have k := f64_near (x := 18 / 10) (y := 9 / 5) (e := 0) 2 (by norm_num) (by norm_num [abs_le]) (by norm_num)
    have m := mul_near hv k hM (L := 2) (by norm_num [abs_le])
    have hM2 : |(n : Rat) / 10 * (9 / 5)| ≤ 180 := by
      rw [abs_mul]; norm_num [abs_of_nonneg]; linarith
    have m' := f64_near 180 m hM2 (by norm_num)
    have a := add_near m' (near_self 32)
    have hM3 : |(n : Rat) / 10 * (9 / 5) + 32| ≤ 212 := le_trans (abs_add_le _ _) (by norm_num; linarith)
    have a' := f64_near 212 a hM3 (by norm_num)
    have a'' := f32_near 212 a' hM3 (by norm_num)
    refine le_trans a'' (by norm_num)

theorem temperature_range {imperial : Bool} {t : Temperature} (h : ∀ n, tenths t = some n → |n| < 1000) {v : Int}
    (hv : temperatureIn imperial t = some v) : lowestDegrees imperial ≤ v ∧ v ≤ highestDegrees imperial := by
  cases ht : tenths t with
  | none =>
    obtain ⟨w, f, p⟩ := t
    cases w
    · cases imperial <;> cases hv
    · simp [tenths] at ht
  | some n =>
    have hn := h n ht
    have hn' : |(n : Rat)| ≤ 999 := by exact_mod_cast (by omega : |n| ≤ 999)
    have hn' := abs_le.mp hn'
    cases imperial with
    | false =>
      simp only [temperatureIn, Bool.false_eq_true, if_false, temperature_eq ht hn.le, Option.map_some,
        Option.some.injEq] at hv
      subst hv
      have := abs_le.mp (value_near hn.le)
      refine part_range (lo := -99) (hi := 99) (by omega) (by omega) ?_ ?_ <;> push_cast <;>
        norm_num at this ⊢ <;> linarith [this.1, this.2, hn'.1, hn'.2]
    | true =>
      obtain ⟨q, hq, hw⟩ := fahrenheit_near ht hn.le
      simp only [temperatureIn, if_true, hq, Option.map_some, Option.some.injEq] at hv
      subst hv
      have := abs_le.mp hw
      refine part_range (lo := -147) (hi := 211) (by omega) (by omega) ?_ ?_ <;> push_cast <;>
        norm_num at this ⊢ <;> linarith [this.1, this.2, hn'.1, hn'.2]

theorem pressure_range {imperial : Bool} {p : Pressure} (h : ∀ q, p.pressureValue = some q → 0 ≤ q ∧ q ≤ 10000)
    {v : Int} (hv : pressureIn imperial p = some v) : 0 ≤ v := by
  obtain ⟨w, u⟩ := p
  cases w with
  | none => cases imperial <;> cases hv
  | some w =>
    obtain ⟨h0, h1⟩ := h w rfl
    have key : ∀ u' q, (⟨some w, u⟩ : Pressure).toUnit u' = some q → -(1 / 2 ^ 50) ≤ q := by
      intro u' q hq
      obtain ⟨r, hr, hw⟩ := C31_pressure_value w h0 (le_trans h1 (by norm_num)) u u'
      rw [hr] at hq
      obtain rfl := Option.some.inj hq
      have hp : 0 ≤ w * (hpaPer u / hpaPer u') := by
        cases u <;> cases u' <;> simp only [hpaPer] <;> positivity
      unfold Within at hw
      have := (abs_le.mp hw).1
      norm_num at this ⊢
      linarith
    have fin : ∀ q : Rat, -(1 / 2) ≤ q → 0 ≤ integerPart q := by
      intro q hq
      have : q < ⌈|q|⌉ + 1 := by
        have := Int.le_ceil |q|
        have := le_abs_self q
        linarith
      exact (part_range (lo := 0) (hi := ⌈|q|⌉) le_rfl (Int.ceil_nonneg (abs_nonneg _))
        (by push_cast; linarith) this).1
    cases imperial with
    | false =>
      simp only [pressureIn, Bool.false_eq_true, if_false, Option.map_eq_some_iff] at hv
      obtain ⟨q, hq, rfl⟩ := hv
      exact fin q (le_trans (by norm_num) (key _ q hq))
    | true =>
      simp only [pressureIn, if_true, Option.map_eq_some_iff] at hv
      obtain ⟨q, hq, rfl⟩ := hv
      have h1 := FloatSem.f32_mono (-(1 / 2)) (q * 100) (by have := key _ q hq; norm_num at this ⊢; linarith)
      have h2 : f32 (-(1 / 2)) = -(1 / 2) := by
        have := FloatIeee.f32_rep (-1) (-1) (by norm_num) (by norm_num)
        norm_num at this ⊢
        exact this
      rw [h2] at h1
      exact fin _ h1

theorem told_iff {v : Option Int} (h : ∀ n, v = some n → -250 < n) : orNone v = -250 ↔ v = none := by
  cases v with
  | none => exact ⟨fun _ => rfl, fun _ => rfl⟩
  | some n =>
    have := h n rfl
    show n = -250 ↔ _
    constructor
    · omega
    · intro h; cases h

theorem toUnit_none {imperial : Bool} :
    (∀ s, speedIn imperial s = none ↔ s.speedValue = none) ∧
    (∀ x, distanceIn imperial x = none ↔ x.dist = none) ∧
    (∀ t, temperatureIn imperial t = none ↔ t.isReported = false) ∧
    (∀ p, pressureIn imperial p = none ↔ p.pressureValue = none) := by
  refine ⟨fun s => ?_, fun x => ?_, fun t => ?_, fun p => ?_⟩
  · obtain ⟨v, u⟩ := s
    cases v <;> cases u <;> cases imperial <;> simp [speedIn, Speed.toUnit, Speed.knotsToUnit,
      Speed.mpsToUnit, Speed.kmhToUnit, Speed.mphToUnit]
  · obtain ⟨m, v, u⟩ := x
    cases v <;> cases u <;> cases imperial <;> simp [distanceIn, Distance.toUnit, Distance.distance,
      Distance.metersToUnit, Distance.milesToUnit, Distance.feetToUnit]
  · obtain ⟨v, f, p⟩ := t
    cases v <;> cases p <;> cases imperial <;> simp [temperatureIn, Temperature.toUnit,
      Temperature.temperature, Temperature.isReported]
  · obtain ⟨v, u⟩ := p
    cases v <;> cases u <;> cases imperial <;> simp [pressureIn, Pressure.toUnit]

/-- Which members on wind and visibility are not reported. -/
structure SkyMissing (wind : Group → Option WindGroup) (vis : Group → Option VisibilityGroup)
    (gs : List Group) (r : CurrentWeather) : Prop where
  windDirection : r.windDirection = -250 ↔ ∀ g ∈ gs, ∀ w, wind g = some w → w.windDir.degrees = none
  windSpeed : r.windSpeed = -250 ↔ ∀ g ∈ gs, ∀ w, wind g = some w → w.wSpeed.speedValue = none
  gustSpeed : r.gustSpeed = -250 ↔ ∀ g ∈ gs, ∀ w, wind g = some w → w.gSpeed.speedValue = none
  visibility : r.visibility = -250 ↔ .keyword ⟨.CAVOK⟩ ∉ gs ∧
    ∀ g ∈ gs, ∀ v, vis g = some v → v.visibility.dist = none
  cloud : r.cloud = .NOT_SPECIFIED ↔ ∀ g ∈ gs, coverOf g = none

/-- Which members on temperature, humidity and pressure are not reported. -/
structure MeasuredMissing (gs : List Group) (r : CurrentWeather) : Prop where
  airTemperature : r.airTemperature = -250 ↔ ∀ t, .temperature t ∈ gs → t.t.isReported = false
  relativeHumidity : r.relativeHumidity = -250 ↔
    ∀ t, .temperature t ∈ gs → t.t.isReported = true → t.dp.isReported = false
  atmosphericPressure : r.atmosphericPressure = -250 ↔
    ∀ p, .pressure p ∈ gs → p.t = .OBSERVED_QNH → p.p.pressureValue = none

theorem bind_none_iff {α β : Type} {o : Option α} {f : α → Option β} :
    o.bind f = none ↔ ∀ a, o = some a → f a = none := by
  cases o <;> simp

theorem greatest_none {cs : List Cover} : greatest cs = .NOT_SPECIFIED ↔ cs = [] := by
  constructor
  · intro h
    cases cs with
    | nil => rfl
    | cons c cs =>
      exfalso
      unfold greatest at h
      cases c <;> simp at h <;> split at h <;> first | cases h | (split at h <;> first | cases h | (split at h <;> cases h))
  · rintro rfl; rfl

theorem fromLastPartly_nil {cs : List Cover} : fromLastPartly cs = [] ↔ cs = [] := by
  unfold fromLastPartly
  split
  · rename_i h
    constructor
    · intro h; cases h
    · rintro rfl; cases h
  · rfl

theorem sky_missing {imperial : Bool} {wind : Group → Option WindGroup}
    {vis : Group → Option VisibilityGroup} {weather : Group → Option WeatherGroup} {gs : List Group}
    {r : CurrentWeather} (hw : ∀ g w, wind g = some w → g = .wind w)
    (hv : ∀ g v, vis g = some v → g = .visibility v) (hm : ∀ g ∈ gs, Modest g)
    (h : SkyAndWind imperial wind vis weather gs r) : SkyMissing wind vis gs r where
  windDirection := by
    rw [h.windDirection, told_iff, lastOf_none]
    · simp only [bind_none_iff, Option.map_eq_none_iff]
    · intro n hn
      obtain ⟨g, hg, hn⟩ := lastOf_mem hn
      obtain ⟨w, -, hn⟩ := Option.bind_eq_some_iff.mp hn
      obtain ⟨d, -, rfl⟩ := Option.map_eq_some_iff.mp hn
      have : (0 : Int) ≤ Int.ofNat d := Int.natCast_nonneg d
      omega
  windSpeed := by
    rw [h.windSpeed, told_iff, lastOf_none]
    · simp only [bind_none_iff, toUnit_none.1]
    · intro n hn
      obtain ⟨g, hg, hn⟩ := lastOf_mem hn
      obtain ⟨w, e, hs⟩ := Option.bind_eq_some_iff.mp hn
      obtain rfl := hw g w e
      have := speed_range (hm _ hg).2.1 hs
      omega
  gustSpeed := by
    rw [h.gustSpeed, told_iff, lastOf_none]
    · simp only [bind_none_iff, toUnit_none.1]
    · intro n hn
      obtain ⟨g, hg, hn⟩ := lastOf_mem hn
      obtain ⟨w, e, hs⟩ := Option.bind_eq_some_iff.mp hn
      obtain rfl := hw g w e
      have := speed_range (hm _ hg).2.2 hs
      omega
  visibility := by
    rw [h.visibility, told_iff, lastOf_none]
    · constructor
      · intro k
        refine ⟨fun hc => ?_, fun g hg v e => ?_⟩
        · have := k _ hc
          simp [visibilityTold] at this
        · have := k g hg
          unfold visibilityTold at this
          split at this
          · cases this
          · rw [e] at this
            exact toUnit_none.2.1 _ |>.mp this
      · rintro ⟨k1, k2⟩ g hg
        unfold visibilityTold
        rw [if_neg (by rintro rfl; exact k1 hg), bind_none_iff]
        exact fun v e => toUnit_none.2.1 _ |>.mpr (k2 g hg v e)
    · intro n hn
      obtain ⟨g, hg, hn⟩ := lastOf_mem hn
      unfold visibilityTold at hn
      split at hn
      · cases imperial <;> cases hn <;> simp
      · obtain ⟨v, e, hs⟩ := Option.bind_eq_some_iff.mp hn
        obtain rfl := hv g v e
        have hmo := hm _ hg
        have : ∀ n, v.visibility.dist = some n →
            n ≤ 10000 ∨ (v.visibility.distUnit = .STATUTE_MILES ∧ n ≤ 2000000) := by
          unfold VisibilityGroup.visibility
          split
          · intro n hn; cases hn
          · exact hmo
        have := distance_range this hs
        omega
  cloud := by
    rw [h.cloud, greatest_none, fromLastPartly_nil]
    unfold covers
    rw [List.filterMap_eq_nil_iff]

theorem measured_missing {imperial : Bool} {gs : List Group} {r : CurrentWeather} (hp : PowTen)
    (hm : ∀ g ∈ gs, Modest g) (h : Measured imperial gs r) : MeasuredMissing gs r where
  airTemperature := by
    rw [h.airTemperature, told_iff, lastOf_none]
    · simp only [bind_none_iff, toUnit_none.2.2.1]
      constructor
      · intro k t ht
        by_contra hc
        have hc : t.t.isReported = true := by simpa using hc
        have := k _ ht t (by simp [temperatureGroupOf, hc])
        rw [hc] at this
        cases this
      · intro k g hg t e
        cases g <;> simp only [temperatureGroupOf, reduceCtorEq] at e
        split at e
        · obtain rfl := Option.some.inj e
          exact k _ hg
        · cases e
    · intro n hn
      obtain ⟨g, hg, hn⟩ := lastOf_mem hn
      obtain ⟨t, e, hn⟩ := Option.bind_eq_some_iff.mp hn
      cases g <;> simp only [temperatureGroupOf, reduceCtorEq] at e
      split at e
      · obtain rfl := Option.some.inj e
        have := (temperature_range (hm _ hg).1 hn).1
        have : (-147 : Int) ≤ lowestDegrees imperial := by cases imperial <;> decide
        omega
      · cases e
  relativeHumidity := by
    rw [h.relativeHumidity, told_iff, lastOf_none]
    · simp only [bind_none_iff, Option.map_eq_none_iff]
      have key : ∀ t : TemperatureGroup, t.relativeHumidity = none ↔
          (t.t.isReported = true → t.dp.isReported = false) := by
        intro t
        have := C28_available t.t t.dp
        rw [show t.relativeHumidity = Temperature.relativeHumidity t.t t.dp from rfl]
        rw [← Option.not_isSome_iff_eq_none, this]
        simp
      constructor
      · intro k t ht hc
        have := k _ ht t (by simp [temperatureGroupOf, hc])
        exact (key t).mp this hc
      · intro k g hg t e
        cases g <;> simp only [temperatureGroupOf, reduceCtorEq] at e
        split at e
        · obtain rfl := Option.some.inj e
          exact (key _).mpr (k _ hg)
        · cases e
    · intro n hn
      obtain ⟨g, hg, hn⟩ := lastOf_mem hn
      obtain ⟨t, e, hn⟩ := Option.bind_eq_some_iff.mp hn
      obtain ⟨q, hq, rfl⟩ := Option.map_eq_some_iff.mp hn
      cases g <;> simp only [temperatureGroupOf, reduceCtorEq] at e
      split at e
      · obtain rfl := Option.some.inj e
        have := humidity_reported hp (hm _ hg).1 (hm _ hg).2 hq
        have := (part_range (lo := 0) (hi := 100) (by omega) (by omega) (by push_cast; linarith [this.1])
          (by push_cast; linarith [this.2])).1
        omega
      · cases e
  atmosphericPressure := by
    rw [h.atmosphericPressure, told_iff, lastOf_none]
    · simp only [bind_none_iff, toUnit_none.2.2.2]
      constructor
      · intro k p hp' hq
        exact k _ hp' p.p (by simp [qnhOf, hq])
      · intro k g hg p e
        cases g <;> simp only [qnhOf, reduceCtorEq] at e
        split at e
        · obtain rfl := Option.some.inj e
          exact k _ hg ‹_›
        · cases e
    · intro n hn
      obtain ⟨g, hg, hn⟩ := lastOf_mem hn
      obtain ⟨t, e, hn⟩ := Option.bind_eq_some_iff.mp hn
      cases g <;> simp only [qnhOf, reduceCtorEq] at e
      split at e
      · obtain rfl := Option.some.inj e
        have := pressure_range (hm _ hg) hn
        omega
      · cases e

theorem prevailing_eq (g : Group) (v : VisibilityGroup) (h : prevailing g = some v) : g = .visibility v := by
  cases g <;> simp only [prevailing, reduceCtorEq] at h
  split at h
  · rw [Option.some.inj h]
  · cases h

theorem anyVisibility_eq (g : Group) (v : VisibilityGroup) (h : anyVisibility g = some v) :
    g = .visibility v := by
  cases g <;> simp only [anyVisibility, reduceCtorEq] at h
  rw [Option.some.inj h]

/-- C95: in the summary of a METAR report a member is −250 exactly if no group before the first trend
has a value for it. -/
theorem C95_metar (hp : PowTen) {metar taf : Str} {y m d : Int} {imperial : Bool} {gs : List GroupInfo}
    {r : CurrentWeather} (hm : Gives metar .METAR gs) (h : getCurrentWeather metar taf y m d imperial = .ok r) :
    SkyMissing surfaceWind prevailing (beforeTrend (gs.map (·.group))) r ∧
    MeasuredMissing (beforeTrend (gs.map (·.group))) r := by
  obtain ⟨s, t⟩ := C87_metar hm h
  have k : ∀ g ∈ beforeTrend (gs.map (·.group)), Modest g :=
    fun g hg => gives_modest hm g (beforeTrend_subset g hg)
  exact ⟨sky_missing surfaceWind_eq prevailing_eq k s, measured_missing hp k t⟩

/-- C95: the same in the summary of a TAF report. -/
theorem C95_taf {metar taf : Str} {y m d : Int} {imperial : Bool} {gs : List GroupInfo}
    {r : CurrentWeather} (hm : Refused metar .METAR) (ht : Gives taf .TAF gs)
    (h : getCurrentWeather metar taf y m d imperial = .ok r) :
    SkyMissing anyWind anyVisibility (beforeSecondTrend (gs.map (·.group))) r := by
  obtain ⟨s, -⟩ := C88_taf hm ht h
  exact sky_missing anyWind_eq anyVisibility_eq
    (fun g hg => gives_modest ht g (beforeSecondTrend_subset g hg)) s

/-- C95: the lowest and highest temperature are −250 exactly if the last group of the TAF report on them
has none. -/
theorem C95_high_low {metar taf : Str} {y m d : Int} {imperial : Bool} {gs : List GroupInfo}
    {r : CurrentWeather} (ht : Gives taf .TAF gs) (h : getCurrentWeather metar taf y m d imperial = .ok r) :
    (r.airTemperatureLow = -250 ↔
      ∀ g, lastOf minMaxOf (gs.map (·.group)) = some g → g.minTemp.isReported = false) ∧
    (r.airTemperatureHigh = -250 ↔
      ∀ g, lastOf minMaxOf (gs.map (·.group)) = some g → g.maxTemp.isReported = false) := by
  obtain ⟨a, b⟩ := C88_high_low ht h
  have key : ∀ g, lastOf minMaxOf (gs.map (·.group)) = some g → Modest (.minMaxTemperature g) := by
    intro g hg
    obtain ⟨x, hx, hf⟩ := lastOf_mem hg
    unfold minMaxOf at hf
    split at hf
    · obtain rfl := Option.some.inj hf
      exact gives_modest ht _ hx
    · cases hf
  have low : (-147 : Int) ≤ lowestDegrees imperial := by cases imperial <;> decide
  rw [a, b, told_iff, told_iff]
  · simp only [bind_none_iff, toUnit_none.2.2.1]
    exact ⟨trivial, trivial⟩
  · intro n hn
    obtain ⟨g, hg, hn⟩ := Option.bind_eq_some_iff.mp hn
    have := (temperature_range (key g hg).2 hn).1
    omega
  · intro n hn
    obtain ⟨g, hg, hn⟩ := Option.bind_eq_some_iff.mp hn
    have := (temperature_range (key g hg).1 hn).1
    omega

/-! ### C93 -/

theorem updated_metar {metar taf : Str} {y m d : Int} {imperial : Bool} {gs : List GroupInfo}
    {r : CurrentWeather} (hm : Gives metar .METAR gs) (h : getCurrentWeather metar taf y m d imperial = .ok r) :
    updated r = updated (reportReleaseTime {} gs y m d) := by
  obtain ⟨r1, tg, -, h1, h2⟩ := summary_metar hm h
  obtain ⟨-, -, k1, k2, k3, k4, k5⟩ := metarLoop_keeps h1
  have e : updated r1 = updated {} := by simp only [updated, k1, k2, k3, k4, k5]
  obtain ⟨_, _, h2⟩ := bind_ok h2
  obtain ⟨_, _, h2⟩ := bind_ok h2
  obtain rfl := Except.ok.inj h2
  rw [releaseTime_eq, ← e, ← releaseTime_eq]
  rfl

theorem updated_taf {metar taf : Str} {y m d : Int} {imperial : Bool} {gs : List GroupInfo}
    {r : CurrentWeather} (hm : Refused metar .METAR) (ht : Gives taf .TAF gs)
    (h : getCurrentWeather metar taf y m d imperial = .ok r) :
    updated r = updated (reportReleaseTime {} gs y m d) := by
  obtain ⟨r1, tg, h0, h1, h2⟩ := summary_taf hm h
  rw [parseReport_gives ht] at h0
  obtain rfl := Except.ok.inj h0
  obtain ⟨-, -, k1, k2, k3, k4, k5⟩ := (tafLoop_keeps h1).1
  have e : updated r1 = updated {} := by simp only [updated, k1, k2, k3, k4, k5]
  obtain ⟨_, _, h2⟩ := bind_ok h2
  obtain ⟨_, _, h2⟩ := bind_ok h2
  obtain rfl := Except.ok.inj h2
  rw [releaseTime_eq, ← e, ← releaseTime_eq]
  rfl

/-- C93: the choice of units has an effect on speed, visibility, temperature and pressure only. -/
theorem C93_units {metar taf : Str} {y m d : Int} {r r' : CurrentWeather}
    (h : getCurrentWeather metar taf y m d false = .ok r)
    (h' : getCurrentWeather metar taf y m d true = .ok r') :
    r' = { r with
      windSpeed := r'.windSpeed, gustSpeed := r'.gustSpeed, visibility := r'.visibility
      airTemperature := r'.airTemperature, perceivedTemperature := r'.perceivedTemperature
      airTemperatureHigh := r'.airTemperatureHigh, airTemperatureLow := r'.airTemperatureLow
      atmosphericPressure := r'.atmosphericPressure } := by
  have key : r'.windDirection = r.windDirection ∧ r'.isWindVariable = r.isWindVariable ∧
      r'.cloud = r.cloud ∧ r'.isStormClouds = r.isStormClouds ∧ r'.weather = r.weather ∧
      r'.relativeHumidity = r.relativeHumidity ∧ updated r' = updated r := by
    have common : ∀ {wind vis weather gs}, SkyAndWind false wind vis weather gs r →
        SkyAndWind true wind vis weather gs r' → r'.windDirection = r.windDirection ∧
        r'.isWindVariable = r.isWindVariable ∧ r'.cloud = r.cloud ∧ r'.isStormClouds = r.isStormClouds ∧
        r'.weather = r.weather := fun s s' =>
      ⟨s'.windDirection.trans s.windDirection.symm,
        Bool.eq_iff_iff.mpr (s'.isWindVariable.trans s.isWindVariable.symm), s'.cloud.trans s.cloud.symm,
        Bool.eq_iff_iff.mpr (s'.isStormClouds.trans s.isStormClouds.symm), s'.weather.trans s.weather.symm⟩
    by_cases hm : ∃ gs, Gives metar .METAR gs
    · obtain ⟨gs, hm⟩ := hm
      obtain ⟨s, t⟩ := C87_metar hm h
      obtain ⟨s', t'⟩ := C87_metar hm h'
      obtain ⟨e1, e2, e3, e4, e5⟩ := common s s'
      exact ⟨e1, e2, e3, e4, e5, t'.relativeHumidity.trans t.relativeHumidity.symm,
        (updated_metar hm h').trans (updated_metar hm h).symm⟩
    · by_cases ht : ∃ gs, Gives taf .TAF gs
      · obtain ⟨gs, ht⟩ := ht
        obtain ⟨s, -, -, k, -⟩ := C88_taf hm ht h
        obtain ⟨s', -, -, k', -⟩ := C88_taf hm ht h'
        obtain ⟨e1, e2, e3, e4, e5⟩ := common s s'
        exact ⟨e1, e2, e3, e4, e5, k'.trans k.symm, (updated_taf hm ht h').trans (updated_taf hm ht h).symm⟩
      · rw [C91_nothing hm ht] at h h'
        obtain rfl := Except.ok.inj h
        obtain rfl := Except.ok.inj h'
        exact ⟨rfl, rfl, rfl, rfl, rfl, rfl, rfl⟩
  obtain ⟨⟩ := r
  obtain ⟨⟩ := r'
  simp only [updated, Prod.mk.injEq, CurrentWeather.mk.injEq] at key ⊢
  simp [key]

/-- C93: a value reported in one system of units is reported in the other. -/
theorem C93_reported (hp : PowTen) {metar taf : Str} {y m d : Int} {r r' : CurrentWeather}
    (h : getCurrentWeather metar taf y m d false = .ok r)
    (h' : getCurrentWeather metar taf y m d true = .ok r') :
    (r'.windSpeed = -250 ↔ r.windSpeed = -250) ∧ (r'.gustSpeed = -250 ↔ r.gustSpeed = -250) ∧
    (r'.visibility = -250 ↔ r.visibility = -250) ∧ (r'.airTemperature = -250 ↔ r.airTemperature = -250) ∧
    (r'.atmosphericPressure = -250 ↔ r.atmosphericPressure = -250) ∧
    (r'.airTemperatureHigh = -250 ↔ r.airTemperatureHigh = -250) ∧
    (r'.airTemperatureLow = -250 ↔ r.airTemperatureLow = -250) := by
  have low : (r'.airTemperatureHigh = -250 ↔ r.airTemperatureHigh = -250) ∧
      (r'.airTemperatureLow = -250 ↔ r.airTemperatureLow = -250) := by
    by_cases ht : ∃ gs, Gives taf .TAF gs
    · obtain ⟨gs, ht⟩ := ht
      obtain ⟨a, b⟩ := C95_high_low ht h
      obtain ⟨a', b'⟩ := C95_high_low ht h'
      exact ⟨b'.trans b.symm, a'.trans a.symm⟩
    · obtain ⟨a, b⟩ := C88_no_high_low ht h
      obtain ⟨a', b'⟩ := C88_no_high_low ht h'
      simp [a, b, a', b']
  by_cases hm : ∃ gs, Gives metar .METAR gs
  · obtain ⟨gs, hm⟩ := hm
    obtain ⟨s, t⟩ := C95_metar hp hm h
    obtain ⟨s', t'⟩ := C95_metar hp hm h'
    exact ⟨s'.windSpeed.trans s.windSpeed.symm, s'.gustSpeed.trans s.gustSpeed.symm,
      s'.visibility.trans s.visibility.symm, t'.airTemperature.trans t.airTemperature.symm,
      t'.atmosphericPressure.trans t.atmosphericPressure.symm, low⟩
  · by_cases ht : ∃ gs, Gives taf .TAF gs
    · obtain ⟨gs, ht⟩ := ht
      obtain ⟨-, k1, -, -, k2⟩ := C88_taf hm ht h
      obtain ⟨-, k1', -, -, k2'⟩ := C88_taf hm ht h'
      have s := C95_taf hm ht h
      have s' := C95_taf hm ht h'
      exact ⟨s'.windSpeed.trans s.windSpeed.symm, s'.gustSpeed.trans s.gustSpeed.symm,
        s'.visibility.trans s.visibility.symm, by rw [k1, k1'], by rw [k2, k2'], low⟩
    · rw [C91_nothing hm ht] at h h'
      obtain rfl := Except.ok.inj h
      obtain rfl := Except.ok.inj h'
      simp

/-! ### C89 -/

/-- C89. What is missing: the member on the cover of the sky is the greatest cover said only if no lesser
amount follows a greater one; see `C89_violated`. -/
theorem C89_sky_partial {metar taf : Str} {y m d : Int} {imperial : Bool} {gs : List GroupInfo}
    {r : CurrentWeather} (hm : Gives metar .METAR gs) (h : getCurrentWeather metar taf y m d imperial = .ok r)
    (ho : NotLess (covers (beforeTrend (gs.map (·.group))))) :
    r.cloud = greatest (covers (beforeTrend (gs.map (·.group)))) := by
  rw [(C87_metar hm h).1.cloud, greatest_ordered _ ho]

/-- C89, the same for a TAF report. -/
theorem C89_sky_taf_partial {metar taf : Str} {y m d : Int} {imperial : Bool} {gs : List GroupInfo}
    {r : CurrentWeather} (hm : Refused metar .METAR) (ht : Gives taf .TAF gs)
    (h : getCurrentWeather metar taf y m d imperial = .ok r)
    (ho : NotLess (covers (beforeSecondTrend (gs.map (·.group))))) :
    r.cloud = greatest (covers (beforeSecondTrend (gs.map (·.group)))) := by
  rw [(C88_taf hm ht h).1.cloud, greatest_ordered _ ho]

end Metaf.Props

/-! ### Examples -/

namespace Metaf.Props

open Metaf Metaf.Spec Metaf.Summary

attribute [local instance] ieee

/-- A METAR report the second cloud layer of which is thinner than the first. -/
def brokenText : Str := c!"METAR KJFK 121530Z 05014G20KT 3SM -RA BKN010 SCT020CB M10/M12 A2993"

/-- The same with the layers in the order of amounts, and a trend. -/
def trendText : Str := c!"METAR KJFK 121530Z 05014G20KT 3SM -RA SCT010 BKN020 M10/M12 A2993 BECMG 9999 SKC"

set_option maxRecDepth 4000 in
/-- C89 does not hold: a broken layer at 1000 feet and a scattered one at 2000 feet give a sky which is
mostly clear, because the condition at summary.cpp:168 holds whatever the cover before. -/
theorem C89_violated : ∃ metar gs r, Gives metar .METAR gs ∧
    getCurrentWeather metar c!"" 2020 3 14 true = .ok r ∧
    r.cloud = .MOSTLY_CLEAR ∧ greatest (covers (beforeTrend (gs.map (·.group)))) = .MOSTLY_CLOUDY := by
  obtain ⟨gs, hg⟩ := gives_of (report := brokenText) (type := .METAR) (by kernel_rfl)
  have h : (Parser.parse brokenText).map (fun r => greatest (covers (beforeTrend (r.groups.map (·.group))))) =
      .ok .MOSTLY_CLOUDY := by kernel_rfl
  have h' : (getCurrentWeather brokenText c!"" 2020 3 14 true).map (·.cloud) = .ok .MOSTLY_CLEAR := by kernel_rfl
  obtain ⟨r, hr⟩ := C92_total powTen_ieee powSmall_ieee brokenText c!"" 2020 3 14 true
  rw [hr] at h'
  refine ⟨_, gs, r, hg, hr, Except.ok.inj h', ?_⟩
  obtain ⟨rep, hp, -, -, rfl⟩ := hg
  rw [show Parser.parse brokenText = .ok rep from hp] at h
  exact Except.ok.inj h

set_option maxRecDepth 4000 in
/-- Example: C89 with the layers in the order of amounts. -/
example : ∃ gs, Gives trendText .METAR gs ∧ NotLess (covers (beforeTrend (gs.map (·.group)))) := by
  obtain ⟨gs, hg⟩ := gives_of (report := trendText) (type := .METAR) (by kernel_rfl)
  have h : (Parser.parse trendText).map (fun r => covers (beforeTrend (r.groups.map (·.group)))) =
      .ok [.partly, .broken] := by kernel_rfl
  refine ⟨gs, hg, ?_⟩
  obtain ⟨rep, hp, -, -, rfl⟩ := hg
  rw [show Parser.parse trendText = .ok rep from hp] at h
  rw [show covers (beforeTrend (rep.groups.map (·.group))) = [.partly, .broken] from Except.ok.inj h]
  simp [NotLess]

/-- Example: C88 and C91 for the reports of `Verif.Props.Summary`. -/
example : ∃ gs : List GroupInfo, (-3 : Int) =
    orNone ((lastOf minMaxOf (gs.map (·.group))).bind fun g => temperatureIn false g.minTemp) :=
  tafText_gives.elim fun _ hg => ⟨_, (C88_high_low hg metarText_summary).1⟩

example : getCurrentWeather tafText tafText 2020 3 14 false = getCurrentWeather c!"" tafText 2020 3 14 false :=
  C91_no_metar tafText_refused (nothing_refused _) _ _ _ _ _

example : getCurrentWeather tafText c!"" 2020 3 14 false = .ok {} :=
  C91_nothing tafText_refused (nothing_refused _) _ _ _ _

/-- Example: C93 for the METAR report. -/
example : ∃ r', getCurrentWeather metarText tafText 2020 3 14 true = .ok r' ∧ r'.windDirection = 50 ∧
    r'.relativeHumidity = 76 ∧ r'.windSpeed ≠ -250 ∧ r'.gustSpeed = -250 := by
  obtain ⟨r', hr⟩ := C92_total powTen_ieee powSmall_ieee metarText tafText 2020 3 14 true
  have h1 := C93_units metarText_summary hr
  have h2 := C93_reported powTen_ieee metarText_summary hr
  refine ⟨r', hr, by rw [h1], by rw [h1], fun h => ?_, h2.2.1.mpr rfl⟩
  exact absurd (h2.1.mp h) (by decide)

/-- Example: C94 for both reports. -/
example : ∃ gs gs' r r', Gives metarText .METAR gs ∧ Gives tafText .TAF gs' ∧
    Released (gs.map (·.group)) ⟨2020, 3, 14⟩ r ∧ Released (gs'.map (·.group)) ⟨2020, 3, 14⟩ r' ∧
    r.updateDay = 12 ∧ r'.updateDay = 11 := by
  obtain ⟨gs, hg⟩ := metarText_gives
  obtain ⟨gs', hg'⟩ := tafText_gives
  exact ⟨gs, gs', _, _, hg, hg',
    C94_metar hg (by norm_num) (by norm_num) (by norm_num) (by norm_num) (by norm_num) metarText_summary,
    C94_taf (nothing_refused _) hg' (by norm_num) (by norm_num) (by norm_num) (by norm_num) (by norm_num)
      tafText_summary, rfl, rfl⟩

/-- Example: C95, no gusts are reported, the wind is. -/
example : ∃ gs : List GroupInfo, Gives metarText .METAR gs ∧
    SkyMissing surfaceWind prevailing (beforeTrend (gs.map (·.group)))
      { windDirection := 50, windSpeed := 14, visibility := 10000, cloud := .MOSTLY_CLEAR, isStormClouds := true
        weather := [33], airTemperature := 12, perceivedTemperature := 12, airTemperatureHigh := 6
        airTemperatureLow := -3, relativeHumidity := 76, atmosphericPressure := 1013, updateYear := 2020
        updateMonth := 3, updateDay := 12, updateHour := 15, updateMinute := 30 } :=
  metarText_gives.elim fun gs hg => ⟨gs, hg, (C95_metar powTen_ieee hg metarText_summary).1⟩

end Metaf.Props
