import Verif.Props.WrittenForecast
import Verif.Props.Felt

/-!
C151: the forecast temperatures and the time which are written are those of the summary.
-/

set_option linter.unusedSectionVars false

namespace Metaf.Props

open Metaf Metaf.Spec Metaf.Summary

/-- The number of degrees Celsius written, or the whole part of its value in degrees Fahrenheit. -/
def degreesOf (imperial : Bool) (a : ForecastTemperature) : Int :=
  let v : Int := if a.below then -(a.degrees : Int) else a.degrees
  if imperial then (9 * v + 160).tdiv 5 else v

/-- The two temperatures, the lower one first: by their letters, or by their values if they have none. -/
inductive Ordered : ForecastTemperature → ForecastTemperature → ForecastTemperature → ForecastTemperature → Prop
  | minMax {a b} : a.label = .min → b.label = .max → Ordered a b a b
  | maxMin {a b} : a.label = .max → b.label = .min → Ordered a b b a
  | rising {a b} : a.label = .none → b.label = .none → degreesOf false a ≤ degreesOf false b → Ordered a b a b
  | falling {a b} : a.label = .none → b.label = .none → degreesOf false b ≤ degreesOf false a → Ordered a b b a

section

variable [FloatIeee]

theorem degrees_shown {a : ForecastTemperature} (h : a.Ok) (imperial : Bool) :
    temperatureIn imperial a.temperature = some (degreesOf imperial a) := by
  have hd : tenths a.temperature = some (10 * degreesOf false a) := rfl
  have hb : |10 * degreesOf false a| ≤ 1000 := by
    have := h.1
    unfold degreesOf
    simp only [Bool.false_eq_true, if_false]
    rw [abs_le]
    split <;> omega
  cases imperial with
  | false => rw [C96_celsius hd hb, Int.mul_tdiv_cancel_left _ (by norm_num)]
  | true =>
    rw [C96_fahrenheit hd hb, show 9 * (10 * degreesOf false a) + 1600 = 10 * (9 * degreesOf false a + 160) by ring,
      show (50 : Int) = 10 * 5 by rfl, Int.mul_tdiv_mul_of_pos _ _ (by norm_num)]
    rfl

theorem degreesOf_congr {a b : ForecastTemperature} (h : degreesOf false a = degreesOf false b) (imperial : Bool) :
    degreesOf imperial a = degreesOf imperial b := by
  cases imperial with
  | false => exact h
  | true => exact congrArg (fun v : Int => (9 * v + 160).tdiv 5) h

theorem pair_shown {a b lo hi : ForecastTemperature} {g : MinMaxTemperatureGroup} (ha : a.Ok) (hb : b.Ok)
    (h : Ordered a b lo hi) (hp : ForecastPair a b g) (imperial : Bool) :
    temperatureIn imperial g.minTemp = some (degreesOf imperial lo) ∧
    temperatureIn imperial g.maxTemp = some (degreesOf imperial hi) := by
  have sa := degrees_shown ha imperial
  have sb := degrees_shown hb imperial
  have low : b.lower a = true → degreesOf false b ≤ degreesOf false a := by
    intro hl
    simp only [ForecastTemperature.lower, Bool.or_eq_true, Bool.and_eq_true, Bool.not_eq_true', decide_eq_true_eq] at hl
    simp only [degreesOf, Bool.false_eq_true, if_false]
    rcases hl with (⟨h1, h2⟩ | ⟨⟨h1, h2⟩, h3⟩) | ⟨⟨h1, h2⟩, h3⟩ <;> rw [h1, h2] <;> simp <;> omega
  have high : ¬ b.lower a = true → degreesOf false a ≤ degreesOf false b := by
    intro hl
    simp only [ForecastTemperature.lower, Bool.or_eq_true, Bool.and_eq_true, Bool.not_eq_true', decide_eq_true_eq] at hl
    simp only [degreesOf, Bool.false_eq_true, if_false]
    cases h1 : a.below <;> cases h2 : b.below <;> simp [h1, h2] at hl ⊢ <;> omega
  have eq : ∀ {x y : ForecastTemperature}, degreesOf false x ≤ degreesOf false y →
      degreesOf false y ≤ degreesOf false x → degreesOf imperial x = degreesOf imperial y :=
    fun h1 h2 => degreesOf_congr (le_antisymm h1 h2) imperial
  cases h <;> cases hp <;> rename_i l1 l2 l3 l4 <;> try (simp_all; done)
  all_goals first
    | exact ⟨sa, sb⟩
    | exact ⟨sb, sa⟩
    | (rename_i l5 l6; first
        | exact ⟨sa, sb⟩
        | exact ⟨sb, sa⟩
        | exact ⟨sb.trans (congrArg some (eq (low (by assumption)) (by assumption))),
            sa.trans (congrArg some (eq (by assumption) (low (by assumption))))⟩
        | exact ⟨sa.trans (congrArg some (eq (high (by assumption)) (by assumption))),
            sb.trans (congrArg some (eq (by assumption) (high (by assumption))))⟩)

/-- The items which are written in a report. -/
structure BodyItems (p : ReportPart) (items : List (Group × List Str)) : Prop where
  written : ∀ x ∈ items, Written p x.2 x.1 ∧ ¬ Unfinished x.2 ∧ ∀ w ∈ x.2, w ∉ stops p
  separate : items.IsChain Separate

/-- Eleven degrees, at 13 hours on the 17th. -/
def warmest : ForecastTemperature := { label := .max, below := false, degrees := 11, day := 17, hour := 13 }

/-- Five degrees below zero, at 3 hours on the 18th. -/
def coldest : ForecastTemperature := { label := .min, below := true, degrees := 5, day := 18, hour := 3 }

theorem extremes_last {hs : List (Str × Group)} {before after : List (Group × List Str)} {g : MinMaxTemperatureGroup}
    {ws : List Str} (hlast : ∀ x ∈ after, ∀ g, x.1 ≠ .minMaxTemperature g) :
    lastOf minMaxOf (hs.map Prod.snd ++ (before ++ (.minMaxTemperature g, ws) :: after).map Prod.fst) = some g := by
  rw [List.map_append, ← List.append_assoc]
  refine lastOf_append_cons (g := .minMaxTemperature g) rfl fun g' hg' => ?_
  obtain ⟨x, hx, rfl⟩ := List.mem_map.mp hg'
  unfold minMaxOf
  split
  · exact absurd ‹_› (hlast x hx _)
  · rfl

/-- C151: two forecast temperatures which are written in a TAF report, the last ones in it, are the lowest and the
highest temperature of the summary, whatever else is written in it, the METAR report and the date. -/
theorem C151_pair {a b lo hi : ForecastTemperature} {g : MinMaxTemperatureGroup} {hs : List (Str × Group)}
    {before after : List (Group × List Str)} {metar report : Str} {y m d : Int} {imperial : Bool} {r : CurrentWeather}
    (hh : HeaderText .TAF hs) (ha : a.Ok) (hb : b.Ok) (ho : Ordered a b lo hi) (hp : ForecastPair a b g)
    (hi' : BodyItems .TAF (before ++ (.minMaxTemperature g, [a.text, b.text]) :: after))
    (hlast : ∀ x ∈ after, ∀ g, x.1 ≠ .minMaxTemperature g)
    (hg : Groups report (hs.map Prod.fst ++
      (before ++ (.minMaxTemperature g, [a.text, b.text]) :: after).flatMap Prod.snd))
    (hl : (hs.map Prod.fst ++
      (before ++ (.minMaxTemperature g, [a.text, b.text]) :: after).flatMap Prod.snd).length < 200)
    (h : getCurrentWeather metar report y m d imperial = .ok r) :
    r.airTemperatureLow = degreesOf imperial lo ∧ r.airTemperatureHigh = degreesOf imperial hi := by
  obtain ⟨r', hr, ht, he, e⟩ := C70_layout hh (by simp) hi'.written hi'.separate hg hl
  obtain ⟨h1, h2⟩ := C88_high_low ⟨r', hr, ht, he, rfl⟩ h
  obtain ⟨s1, s2⟩ := pair_shown ha hb ho hp imperial
  have e' : r'.groups.map (·.group) = hs.map Prod.snd ++
      (before ++ (.minMaxTemperature g, [a.text, b.text]) :: after).map Prod.fst := by
    rw [e, List.map_append, List.map_map, List.map_map]
    rfl
  rw [h1, h2, e', extremes_last hlast, Option.bind_some, Option.bind_some, s1, s2]
  exact ⟨rfl, rfl⟩

/-- C151: if the last one is a single highest or lowest temperature, only it is known. -/
theorem C151_single {a : ForecastTemperature} {g : MinMaxTemperatureGroup} {hs : List (Str × Group)}
    {before after : List (Group × List Str)} {metar report : Str} {y m d : Int} {imperial : Bool} {r : CurrentWeather}
    (hh : HeaderText .TAF hs) (ha : a.Ok) (hl' : a.label ≠ .none) (hp : ForecastSingle a g)
    (hi' : BodyItems .TAF (before ++ (.minMaxTemperature g, [a.text]) :: after))
    (hlast : ∀ x ∈ after, ∀ g, x.1 ≠ .minMaxTemperature g)
    (hg : Groups report (hs.map Prod.fst ++ (before ++ (.minMaxTemperature g, [a.text]) :: after).flatMap Prod.snd))
    (hl : (hs.map Prod.fst ++ (before ++ (.minMaxTemperature g, [a.text]) :: after).flatMap Prod.snd).length < 200)
    (h : getCurrentWeather metar report y m d imperial = .ok r) :
    r.airTemperatureLow = (if a.label = .min then degreesOf imperial a else -250) ∧
    r.airTemperatureHigh = (if a.label = .max then degreesOf imperial a else -250) := by
  obtain ⟨r', hr, ht, he, e⟩ := C70_layout hh (by simp) hi'.written hi'.separate hg hl
  obtain ⟨h1, h2⟩ := C88_high_low ⟨r', hr, ht, he, rfl⟩ h
  have sa := degrees_shown ha imperial
  have e' : r'.groups.map (·.group) = hs.map Prod.snd ++
      (before ++ (.minMaxTemperature g, [a.text]) :: after).map Prod.fst := by
    rw [e, List.map_append, List.map_map, List.map_map]
    rfl
  rw [h1, h2, e', extremes_last hlast, Option.bind_some, Option.bind_some]
  cases hp with
  | min hm =>
    rw [sa, hm, temperatureIn_missing rfl]
    exact ⟨rfl, rfl⟩
  | max hm =>
    rw [sa, hm, temperatureIn_missing rfl]
    exact ⟨rfl, rfl⟩
  | none hm => exact absurd hm hl'

theorem written_not_time {p : ReportPart} {ws : List Str} {g : Group} (h : Written p ws g) : timeValue g = none := by
  cases h <;> rfl

/-- C151: the day, the hour and the minute written in a METAR report are those of its summary, whatever else is written
in it and whatever the TAF report; the month and the year are those of the latest such day which is not after the
given date. -/
theorem C151_time {k : Str × Group} {cor : List (Str × Group)} {l : Str} {day hour minute : Nat}
    {items : List (Group × List Str)} {report taf : Str} {y m d : Nat} {imperial : Bool} {r : CurrentWeather}
    (hk : k ∈ [(c!"METAR", .keyword ⟨.METAR⟩), (c!"SPECI", .keyword ⟨.SPECI⟩)])
    (hc : cor ∈ [[], [(c!"COR", .keyword ⟨.COR⟩)]]) (hl' : LocationWord l)
    (h1 : day < 100) (h2 : hour < 100) (h3 : minute < 100) (hi : BodyItems .METAR items) (hne : items ≠ [])
    (hg : Groups report ((k.1 :: cor.map Prod.fst ++ [l, timeText day hour minute]) ++ items.flatMap Prod.snd))
    (hl : ((k.1 :: cor.map Prod.fst ++ [l, timeText day hour minute]) ++ items.flatMap Prod.snd).length < 200)
    (hy : 1 ≤ y) (hy' : y < 2147483648) (hm1 : 1 ≤ m) (hm2 : m ≤ 12) (hd : d < 2147483648)
    (h : getCurrentWeather report taf y m d imperial = .ok r) :
    r.updateHour = hour ∧ r.updateMinute = minute ∧ r.updateDay = day ∧
    ∃ date : Date, date.day = day ∧ 1 ≤ date.month ∧ date.month ≤ 12 ∧ r.updateYear = date.year ∧
      r.updateMonth = date.month ∧ NotLater date ⟨y, m, d⟩ ∧
      ∀ other : Date, other.day = day → 1 ≤ other.month → other.month ≤ 12 → NotLater other ⟨y, m, d⟩ →
        NotLater other date := by
  have hh : HeaderText .METAR (k :: cor ++ [(l, .location ⟨l⟩),
      (timeText day hour minute, .reportTime ⟨⟨some day, hour, minute⟩⟩)]) := .metar hk hc hl' h1 h2 h3
  have hw : (k :: cor ++ [(l, Group.location ⟨l⟩),
      (timeText day hour minute, .reportTime ⟨⟨some day, hour, minute⟩⟩)]).map Prod.fst =
      k.1 :: cor.map Prod.fst ++ [l, timeText day hour minute] := by
    rw [List.map_append]
    rfl
  rw [← hw] at hg hl
  obtain ⟨r', hr, ht, he, e⟩ := C70_layout hh hne hi.written hi.separate hg hl
  have rel := C94_metar ⟨r', hr, ht, he, rfl⟩ hy hy' hm1 hm2 hd h
  have e' : r'.groups.map (·.group) = (k :: cor ++ [(l, Group.location ⟨l⟩)]).map Prod.snd ++
      .reportTime ⟨⟨some day, hour, minute⟩⟩ :: items.map Prod.fst := by
    rw [e, List.map_append, List.map_map, List.map_map]
    simp only [List.map_append, List.map_cons, List.map_nil, List.append_assoc, List.cons_append, List.nil_append]
    rfl
  have last : lastOf timeValue (r'.groups.map (·.group)) = some ⟨some day, hour, minute⟩ := by
    rw [e']
    refine lastOf_append_cons rfl fun g' hg' => ?_
    obtain ⟨x, hx, rfl⟩ := List.mem_map.mp hg'
    exact written_not_time (hi.written x hx).1
  obtain ⟨t1, t2⟩ := rel.time _ last
  obtain ⟨date, d1, d2, d3, d4, d5, d6, d7, d8⟩ := rel.date _ last
  have d4 : day = date.day := Option.some.inj d4
  refine ⟨t1, t2, by rw [d3, ← d4], date, d4.symm, d5, d6, d1, d2, d7, fun other ho => d8 other (ho.trans d4)⟩

/-- The temperatures of a forecast from five degrees below zero to eleven above. -/
example {metar : Str} {y m d : Int} {r : CurrentWeather}
    (h : getCurrentWeather metar c!"TAF EFHK 171130Z 1712/1812 TX11/1713Z TNM05/1803Z" y m d true = .ok r) :
    r.airTemperatureLow = 23 ∧ r.airTemperatureHigh = 51 := by
  have hh : HeaderText .TAF ((c!"TAF", .keyword ⟨.TAF⟩) :: [] ++ [(c!"EFHK", .location ⟨c!"EFHK"⟩)] ++
      [(timeText 17 11 30, .reportTime ⟨⟨some 17, 11, 30⟩⟩)] ++
      [((TrendWord.span 17 12 18 12).text, .trend (trendMeaning [.span 17 12 18 12]))]) :=
    .taf (cor := []) (by simp)
      ⟨'E', 'F', 'H', 'K', rfl, by unfold Capital; decide, Or.inl (by unfold Capital; decide),
        Or.inl (by unfold Capital; decide), Or.inl (by unfold Capital; decide)⟩
      (Or.inr ⟨17, 11, 30, by norm_num, by norm_num, by norm_num, rfl⟩) (by norm_num) (by norm_num) (by norm_num)
      (by norm_num)
  have hg := groups_tokens c!"TAF EFHK 171130Z 1712/1812 TX11/1713Z TNM05/1803Z"
  have ha : warmest.Ok := by unfold ForecastTemperature.Ok; decide
  have hb : coldest.Ok := by unfold ForecastTemperature.Ok; decide
  have hp : ForecastPair warmest coldest _ := .maxMin rfl rfl
  refine C151_pair (imperial := true) (before := []) (after := []) hh ha hb (.maxMin rfl rfl) hp ⟨?_, .singleton _⟩
    (fun x hx => (by cases hx)) ?_ (by decide) h
  · intro x hx
    rw [List.mem_singleton.mp hx]
    exact ⟨.forecastTemperatures rfl ha hb hp, fun hu => (by cases hu), by decide⟩
  · have hw : tokens c!"TAF EFHK 171130Z 1712/1812 TX11/1713Z TNM05/1803Z" =
      [c!"TAF", c!"EFHK", timeText 17 11 30, (TrendWord.span 17 12 18 12).text, warmest.text, coldest.text] := by
      decide +kernel
    rw [hw] at hg
    exact hg

/-- Only the highest temperature is forecast. -/
example {metar : Str} {y m d : Int} {r : CurrentWeather}
    (h : getCurrentWeather metar c!"TAF EFHK 1712/1812 TX11/1713Z" y m d false = .ok r) :
    r.airTemperatureLow = -250 ∧ r.airTemperatureHigh = 11 := by
  have hh : HeaderText .TAF ((c!"TAF", .keyword ⟨.TAF⟩) :: [] ++ [(c!"EFHK", .location ⟨c!"EFHK"⟩)] ++ [] ++
      [((TrendWord.span 17 12 18 12).text, .trend (trendMeaning [.span 17 12 18 12]))]) :=
    .taf (cor := []) (by simp)
      ⟨'E', 'F', 'H', 'K', rfl, by unfold Capital; decide, Or.inl (by unfold Capital; decide),
        Or.inl (by unfold Capital; decide), Or.inl (by unfold Capital; decide)⟩
      (Or.inl rfl) (by norm_num) (by norm_num) (by norm_num) (by norm_num)
  have hg := groups_tokens c!"TAF EFHK 1712/1812 TX11/1713Z"
  have ha : warmest.Ok := by unfold ForecastTemperature.Ok; decide
  have hp : ForecastSingle warmest _ := .max rfl
  refine C151_single (imperial := false) (before := []) (after := []) hh ha (by decide) hp ⟨?_, .singleton _⟩
    (fun x hx => (by cases hx)) ?_ (by decide) h
  · intro x hx
    rw [List.mem_singleton.mp hx]
    exact ⟨.forecastTemperature rfl ha hp, long_not_unfinished (w := warmest.text) (by decide), by decide⟩
  · have hw : tokens c!"TAF EFHK 1712/1812 TX11/1713Z" =
      [c!"TAF", c!"EFHK", (TrendWord.span 17 12 18 12).text, warmest.text] := by
      decide +kernel
    rw [hw] at hg
    exact hg

/-- A report of the 28th which is read on the 2nd of January. -/
example {taf : Str} {r : CurrentWeather}
    (h : getCurrentWeather c!"METAR EFHK 281250Z CAVOK" taf (2026 : Nat) (1 : Nat) (2 : Nat) false = .ok r) :
    r.updateHour = 12 ∧ r.updateMinute = 50 ∧ r.updateDay = 28 ∧ r.updateMonth = 12 ∧ r.updateYear = 2025 := by
  have hg := groups_tokens c!"METAR EFHK 281250Z CAVOK"
  have hw : tokens c!"METAR EFHK 281250Z CAVOK" = [c!"METAR", c!"EFHK", timeText 28 12 50, c!"CAVOK"] := by
    decide +kernel
  rw [hw] at hg
  obtain ⟨h1, h2, h3, date, e, m1, m2, e1, e2, n, o⟩ := C151_time (k := (c!"METAR", .keyword ⟨.METAR⟩)) (cor := [])
    (l := c!"EFHK") (day := 28) (hour := 12) (minute := 50) (items := [(.keyword ⟨.CAVOK⟩, [c!"CAVOK"])])
    (by simp) (by simp) ⟨'E', 'F', 'H', 'K', rfl, by unfold Capital; decide, Or.inl (by unfold Capital; decide),
        Or.inl (by unfold Capital; decide), Or.inl (by unfold Capital; decide)⟩
    (by norm_num) (by norm_num) (by norm_num)
    ⟨fun x hx => (by
      rw [List.mem_singleton.mp hx]
      exact ⟨.keyword (keyword_parse_iff.mp rfl), long_not_unfinished (by decide), by decide⟩), .singleton _⟩ (by simp) hg (by decide)
    (by norm_num) (by norm_num) (by norm_num) (by norm_num) (by norm_num) h
  have o := o ⟨2025, 12, 28⟩ rfl (by norm_num) (by norm_num) (by unfold NotLater; simp)
  obtain ⟨yy, mm, dd⟩ := date
  unfold NotLater at n o
  simp only at e e1 e2 n o m1 m2
  refine ⟨h1, h2, h3, ?_, ?_⟩
  · rw [e2]
    omega
  · rw [e1]
    omega

end

end Metaf.Props
