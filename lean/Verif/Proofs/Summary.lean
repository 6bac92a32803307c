import Mathlib.Tactic.Linarith
import Mathlib.Tactic.NormNum
import Mathlib.Tactic.Tauto
import Verif.Proofs.Float
import Verif.Props.Conversion
import Verif.Props.SummaryCodes

/-!
Lemmas on the loops of `/repo/examples/summary.cpp`: what one group changes in the summary.
-/

set_option linter.unusedSectionVars false

namespace Metaf.Summary

open Metaf.Spec Metaf.Props

variable [FloatSem]

/-! ### Conversion to whole numbers -/

theorem floor_eq {q : Rat} : q.floor = q.num / q.den := by
  unfold Rat.floor
  split
  · rename_i h; simp [h]
  · rfl

theorem trunc_eq (q : Rat) : (if q < 0 then -(-q).floor else q.floor) = integerPart q := by
  unfold integerPart
  split
  · rename_i h
    rw [floor_eq]
    have h1 : q.num < 0 := Rat.num_neg.mpr h
    rw [Rat.num_neg_eq_neg_num, Rat.den_neg_eq_den, ← Int.tdiv_eq_ediv_of_nonneg (by omega), Int.neg_tdiv]
    omega
  · rename_i h
    have h1 : 0 ≤ q.num := Rat.num_nonneg.mpr (not_lt.mp h)
    rw [floor_eq, Int.tdiv_eq_ediv_of_nonneg h1]

theorem part_eq {q : Rat} {n : Nat} (h1 : (n : Rat) ≤ q) (h2 : q < n + 1) : integerPart q = n := by
  have h0 : (0 : Rat) ≤ n := by positivity
  rw [← trunc_eq, if_neg (by linarith)]
  exact Metaf.floor_eq (by exact_mod_cast h1) (by exact_mod_cast h2)

theorem toInt_ok {q : Rat} {n : Int} (h : toInt q = .ok n) : n = integerPart q := by
  unfold toInt at h
  rw [trunc_eq] at h
  simp only at h
  split at h
  · exact (Except.ok.inj h).symm
  · cases h

theorem assign_ok {v : Option Rat} {old n : Int} (h : assign v old = .ok n) :
    n = (v.map integerPart).getD old := by
  cases v with
  | none => exact (Except.ok.inj h).symm
  | some q => exact toInt_ok h

theorem bind_ok {α β : Type} {x : Res α} {f : α → Res β} {b : β} (h : (x >>= f) = .ok b) :
    ∃ a, x = .ok a ∧ f a = .ok b := by
  cases x with
  | error e => cases h
  | ok a => exact ⟨a, rfl, h⟩

/-! ### The last group that says something -/

theorem lastOf_nil {α : Type} (f : Group → Option α) : lastOf f [] = none := rfl

theorem lastOf_cons {α : Type} (f : Group → Option α) (g : Group) (gs : List Group) :
    lastOf f (g :: gs) = (lastOf f gs).or (f g) := by
  simp only [lastOf, List.reverse_cons, List.findSome?_append]
  congr 1
  simp only [List.findSome?_cons, List.findSome?_nil]
  cases f g <;> rfl

theorem getD_or {α : Type} (a b : Option α) (c : α) : (a.or b).getD c = a.getD (b.getD c) := by
  cases a <;> rfl

/-! ### What one group changes -/

/-- What one group changes in the members on wind, visibility, clouds and weather. -/
structure Told (imperial : Bool) (wind : Group → Option WindGroup)
    (vis : Group → Option VisibilityGroup) (weather : Group → Option WeatherGroup) (g : Group)
    (r r' : CurrentWeather) : Prop where
  windDirection : r'.windDirection =
    ((wind g).bind fun w => w.windDir.degrees.map toSigned).getD r.windDirection
  isWindVariable : r'.isWindVariable = true ↔
    (∃ w, wind g = some w ∧ w.windDir.dirType = .VARIABLE) ∨ r.isWindVariable = true
  windSpeed : r'.windSpeed = ((wind g).bind fun w => speedIn imperial w.wSpeed).getD r.windSpeed
  gustSpeed : r'.gustSpeed = ((wind g).bind fun w => speedIn imperial w.gSpeed).getD r.gustSpeed
  visibility : r'.visibility = (visibilityTold imperial vis g).getD r.visibility
  isStormClouds : r'.isStormClouds = true ↔
    (∃ c, g = .cloud c ∧ c.convtype = .CUMULONIMBUS) ∨ r.isStormClouds = true
  cloud : r'.cloud = match coverOf g with
    | none => r.cloud
    | some c => addCover r.cloud c
  weather : r'.weather = r.weather ++ ((weather g).toList.flatMap fun w =>
    w.weatherPhenomena.flatMap fun p => phenomenonCodes p.qualifier p.descriptor p.weather)

/-- A group that says nothing. -/
theorem Told.nothing {imperial : Bool} {wind : Group → Option WindGroup}
    {vis : Group → Option VisibilityGroup} {weather : Group → Option WeatherGroup} {g : Group}
    {r r' : CurrentWeather} (h1 : wind g = none) (h2 : visibilityTold imperial vis g = none)
    (h3 : ∀ c, g ≠ .cloud c) (h4 : coverOf g = none) (h5 : weather g = none)
    (e : r'.windDirection = r.windDirection ∧ r'.isWindVariable = r.isWindVariable ∧
      r'.windSpeed = r.windSpeed ∧ r'.gustSpeed = r.gustSpeed ∧ r'.visibility = r.visibility ∧
      r'.isStormClouds = r.isStormClouds ∧ r'.cloud = r.cloud ∧ r'.weather = r.weather) :
    Told imperial wind vis weather g r r' := by
  obtain ⟨e1, e2, e3, e4, e5, e6, e7, e8⟩ := e
  constructor
  · simp [h1, e1]
  · simp [h1, e2]
  · simp [h1, e3]
  · simp [h1, e4]
  · simp [h2, e5]
  · rw [e6]
    exact ⟨Or.inr, fun h => h.resolve_left (fun ⟨c, hc, _⟩ => h3 c hc)⟩
  · simp [h4, e7]
  · simp [h5, e8]

theorem cavok_visibility (imperial : Bool) :
    (Distance.cavokVisibility.toUnit (visibilityUnit imperial)).map integerPart =
      some (if imperial then 6 else 10000) := by
  have e1 : f32 ((10000 : Nat) : Rat) = 10000 := by
    have := FloatSem.f32_int 10000 (by norm_num); exact_mod_cast this
  cases imperial
  · have : Distance.cavokVisibility.toUnit (visibilityUnit false) = some (f32 ((10000 : Nat) : Rat)) := rfl
    rw [this, e1]
    simp only [Option.map_some, Bool.false_eq_true, if_false]
    decide +kernel
  · have : Distance.cavokVisibility.toUnit (visibilityUnit true) =
        some (Speed.divLit (f32 ((10000 : Nat) : Rat)) (1609347 / 1000)) := rfl
    rw [this, e1]
    simp only [Option.map_some, if_true, Option.some.injEq]
    have h := abs_le.mp (divLit_near (v := 10000) (k := 1609347 / 1000) (by norm_num) (by norm_num)
      (by norm_num) (by norm_num))
    generalize Speed.divLit 10000 (1609347 / 1000) = z at h
    have h1 := h.1
    have h2 := h.2
    norm_num at h1 h2
    exact part_eq (n := 6) (by norm_num; linarith) (by norm_num; linarith)

theorem keyword_told {imperial : Bool} {wind : Group → Option WindGroup}
    {vis : Group → Option VisibilityGroup} {weather : Group → Option WeatherGroup} {k : KeywordGroup}
    {r r' : CurrentWeather} (h1 : wind (.keyword k) = none) (h2 : vis (.keyword k) = none)
    (h3 : weather (.keyword k) = none) (h : keywordGroup imperial k r = .ok r') :
    Told imperial wind vis weather (.keyword k) r r' := by
  obtain ⟨t⟩ := k
  unfold keywordGroup at h
  by_cases ht : t = .CAVOK
  · subst ht
    simp only [if_true] at h
    obtain ⟨v, hv, h⟩ := bind_ok h
    obtain rfl := Except.ok.inj h
    have hv := assign_ok hv
    rw [cavok_visibility, Option.getD_some] at hv
    subst hv
    constructor <;> simp [h1, h3, visibilityTold, coverOf, addCover]
  · simp only [ht, if_false] at h
    obtain rfl := Except.ok.inj h
    refine Told.nothing h1 ?_ (fun c hc => nomatch hc) ?_ h3 ⟨rfl, rfl, rfl, rfl, rfl, rfl, rfl, rfl⟩
    · simp [visibilityTold, ht, h2]
    · simp [coverOf, ht]

theorem wind_told {imperial : Bool} {wind : Group → Option WindGroup}
    {vis : Group → Option VisibilityGroup} {weather : Group → Option WeatherGroup} {w : WindGroup}
    {r r' : CurrentWeather} (h1 : wind (.wind w) = some w) (h2 : vis (.wind w) = none)
    (h3 : weather (.wind w) = none) (h : windValues imperial w r = .ok r') :
    Told imperial wind vis weather (.wind w) r r' := by
  unfold windValues at h
  obtain ⟨s, hs, h⟩ := bind_ok h
  obtain ⟨g, hg, h⟩ := bind_ok h
  obtain rfl := Except.ok.inj h
  have hs := assign_ok hs
  have hg := assign_ok hg
  subst hs hg
  constructor
  · simp only [h1, Option.bind_some]
    cases w.windDir.degrees <;> rfl
  · simp only [h1, Option.some.injEq, exists_eq_left']
    by_cases hv : w.windDir.dirType = .VARIABLE <;> simp [hv]
  · simp only [h1, Option.bind_some]; rfl
  · simp only [h1, Option.bind_some]; rfl
  · simp [visibilityTold, h2]
  · simp
  · rfl
  · simp [h3]

theorem visibility_told {imperial : Bool} {wind : Group → Option WindGroup}
    {vis : Group → Option VisibilityGroup} {weather : Group → Option WeatherGroup} {g : VisibilityGroup}
    {r : CurrentWeather} {v : Int} (h1 : wind (.visibility g) = none) (h2 : vis (.visibility g) = some g)
    (h3 : weather (.visibility g) = none)
    (h : assign (g.visibility.toUnit (visibilityUnit imperial)) r.visibility = .ok v) :
    Told imperial wind vis weather (.visibility g) r { r with visibility := v } := by
  have h := assign_ok h
  subst h
  constructor
  · simp [h1]
  · simp [h1]
  · simp [h1]
  · simp [h1]
  · simp only [visibilityTold, h2, reduceCtorEq, if_false, Option.bind_some]; rfl
  · simp
  · rfl
  · simp [h3]

theorem cloud_told {imperial : Bool} {wind : Group → Option WindGroup}
    {vis : Group → Option VisibilityGroup} {weather : Group → Option WeatherGroup} {g : CloudGroup}
    {r : CurrentWeather} (h1 : wind (.cloud g) = none) (h2 : vis (.cloud g) = none)
    (h3 : weather (.cloud g) = none) :
    Told imperial wind vis weather (.cloud g) r (cloudGroup g r) := by
  constructor
  · simp [h1, cloudGroup]
  · simp [h1, cloudGroup]
  · simp [h1, cloudGroup]
  · simp [h1, cloudGroup]
  · simp [visibilityTold, h2, cloudGroup]
  · by_cases hc : g.convtype = .CUMULONIMBUS <;> simp [cloudGroup, hc]
  · exact cover_amount _ _
  · simp [h3, cloudGroup]

theorem weather_told {imperial : Bool} {wind : Group → Option WindGroup}
    {vis : Group → Option VisibilityGroup} {weather : Group → Option WeatherGroup} {g : WeatherGroup}
    {r : CurrentWeather} (h1 : wind (.weather g) = none) (h2 : vis (.weather g) = none)
    (h3 : weather (.weather g) = some g) :
    Told imperial wind vis weather (.weather g) r { r with weather := r.weather ++ weatherCodes g } := by
  constructor
  · simp [h1]
  · simp [h1]
  · simp [h1]
  · simp [h1]
  · simp [visibilityTold, h2]
  · simp
  · rfl
  · simp [h3, weatherCodes, C90_codes]

/-! ### Temperature and pressure -/

/-- What one group changes in the members on temperature, humidity and pressure. -/
structure MeasuredBy (imperial : Bool) (g : Group) (wind : Speed) (r r' : CurrentWeather) : Prop where
  airTemperature : r'.airTemperature =
    ((temperatureGroupOf g).bind fun t => temperatureIn imperial t.t).getD r.airTemperature
  relativeHumidity : r'.relativeHumidity =
    ((temperatureGroupOf g).bind fun t => t.relativeHumidity.map integerPart).getD r.relativeHumidity
  atmosphericPressure : r'.atmosphericPressure =
    ((qnhOf g).bind (pressureIn imperial)).getD r.atmosphericPressure
  perceivedTemperature : r'.perceivedTemperature =
    ((temperatureGroupOf g).bind fun t => felt imperial t (some wind)).getD r.perceivedTemperature

theorem MeasuredBy.nothing {imperial : Bool} {g : Group} {wind : Speed} {r r' : CurrentWeather}
    (h1 : temperatureGroupOf g = none) (h2 : qnhOf g = none)
    (e : r'.airTemperature = r.airTemperature ∧ r'.relativeHumidity = r.relativeHumidity ∧
      r'.atmosphericPressure = r.atmosphericPressure ∧ r'.perceivedTemperature = r.perceivedTemperature) :
    MeasuredBy imperial g wind r r' := by
  obtain ⟨e1, e2, e3, e4⟩ := e
  constructor
  · simp [h1, e1]
  · simp [h1, e2]
  · simp [h2, e3]
  · simp [h1, e4]

theorem temperatureGroup_ok {imperial : Bool} {wind : Speed} {g : TemperatureGroup}
    {r r' : CurrentWeather} (h : temperatureGroup imperial wind g r = .ok r') :
    MeasuredBy imperial (.temperature g) wind r r' ∧
    ∃ a p h, r' = { r with airTemperature := a, perceivedTemperature := p, relativeHumidity := h } := by
  unfold temperatureGroup at h
  obtain ⟨a, ha, h⟩ := bind_ok h
  obtain ⟨p, hp, h⟩ := bind_ok h
  obtain ⟨q, hq, h⟩ := bind_ok h
  obtain ⟨p2, hp2, h⟩ := bind_ok h
  obtain ⟨p3, hp3, h⟩ := bind_ok h
  obtain rfl := Except.ok.inj h
  have ha := assign_ok ha
  have hp := assign_ok hp
  have hq := assign_ok hq
  have hp2 := assign_ok hp2
  have hp3 := assign_ok hp3
  refine ⟨?_, _, _, _, rfl⟩
  subst ha hp hq hp2 hp3
  by_cases ht : g.t.isReported
  · have e : temperatureGroupOf (.temperature g) = some g := by simp [temperatureGroupOf, ht]
    constructor
    · simp only [e, Option.bind_some]; rfl
    · simp only [e, Option.bind_some]
    · rfl
    · simp only [e, Option.bind_some, felt, getD_or]; rfl
  · obtain ⟨tp, ⟨v, f, pr⟩, dp, inc⟩ := g
    cases v with
    | some v => exact absurd rfl ht
    | none => exact MeasuredBy.nothing rfl rfl ⟨rfl, rfl, rfl, rfl⟩

theorem pressureGroup_ok {imperial : Bool} {wind : Speed} {g : PressureGroup}
    {r r' : CurrentWeather} (h : pressureGroup imperial g r = .ok r') :
    MeasuredBy imperial (.pressure g) wind r r' ∧ ∃ p, r' = { r with atmosphericPressure := p } := by
  unfold pressureGroup at h
  by_cases ht : g.t = .OBSERVED_QNH
  · rw [if_pos ht] at h
    have e : qnhOf (.pressure g) = some g.p := by simp [qnhOf, ht]
    cases hp : g.p.toUnit (pressureUnit imperial) with
    | none =>
      rw [hp] at h
      obtain rfl := Except.ok.inj h
      refine ⟨⟨rfl, rfl, ?_, rfl⟩, _, rfl⟩
      rw [e]
      cases imperial <;>
        simp only [pressureUnit, Bool.false_eq_true, if_false, if_true] at hp <;>
        simp [pressureIn, hp]
    | some x =>
      rw [hp] at h
      obtain ⟨v, hv, h⟩ := bind_ok h
      obtain rfl := Except.ok.inj h
      have hv := toInt_ok hv
      refine ⟨⟨rfl, rfl, ?_, rfl⟩, _, rfl⟩
      subst hv
      rw [e]
      cases imperial <;>
        simp only [pressureUnit, Bool.false_eq_true, if_false, if_true] at hp <;>
        simp [pressureIn, hp, pressureUnit]
  · rw [if_neg ht] at h
    obtain rfl := Except.ok.inj h
    exact ⟨MeasuredBy.nothing rfl (by simp [qnhOf, ht]) ⟨rfl, rfl, rfl, rfl⟩, _, rfl⟩

/-! ### One group of a report -/

theorem metarGroup_ok {imperial : Bool} {g : Group} {wind wind' : Speed} {r r' : CurrentWeather}
    (ht : isTrend g = false) (h : metarGroup imperial g wind r = .ok (wind', r')) :
    Told imperial surfaceWind prevailing presentWeather g r r' ∧ MeasuredBy imperial g wind r r' ∧
    wind' = ((surfaceWind g).map (·.wSpeed)).getD wind := by
  have hn : ∀ g r, (∀ c, g ≠ .cloud c) → surfaceWind g = none →
      visibilityTold imperial prevailing g = none → coverOf g = none → presentWeather g = none →
      Told imperial surfaceWind prevailing presentWeather g r r := fun g r h1 h2 h3 h4 h5 =>
    Told.nothing h2 h3 h1 h4 h5 ⟨rfl, rfl, rfl, rfl, rfl, rfl, rfl, rfl⟩
  have hm : ∀ g r, temperatureGroupOf g = none → qnhOf g = none → MeasuredBy imperial g wind r r :=
    fun g r h1 h2 => MeasuredBy.nothing h1 h2 ⟨rfl, rfl, rfl, rfl⟩
  cases g with
  | keyword k =>
    obtain ⟨x, hx, h⟩ := bind_ok h
    cases h
    refine ⟨keyword_told rfl rfl rfl hx, MeasuredBy.nothing rfl rfl ?_, rfl⟩
    unfold keywordGroup at hx
    split at hx
    · obtain ⟨v, hv, hx⟩ := bind_ok hx
      obtain rfl := Except.ok.inj hx
      exact ⟨rfl, rfl, rfl, rfl⟩
    · obtain rfl := Except.ok.inj hx
      exact ⟨rfl, rfl, rfl, rfl⟩
  | trend t => cases ht
  | wind w =>
    have hs : surfaceWind (.wind w) = some w ↔ w.windType = .SURFACE_WIND ∨ w.windType = .SURFACE_WIND_CALM ∨
        w.windType = .SURFACE_WIND_WITH_VARIABLE_SECTOR := by
      simp [surfaceWind]
      tauto
    simp only [metarGroup] at h
    split at h
    · rename_i hw
      obtain ⟨x, hx, h⟩ := bind_ok h
      cases h
      refine ⟨wind_told (hs.mpr hw) rfl rfl hx, MeasuredBy.nothing rfl rfl ?_, by rw [hs.mpr hw]; rfl⟩
      obtain ⟨_, _, hx⟩ := bind_ok hx
      obtain ⟨_, _, hx⟩ := bind_ok hx
      obtain rfl := Except.ok.inj hx
      exact ⟨rfl, rfl, rfl, rfl⟩
    · rename_i hw
      cases h
      have e : surfaceWind (.wind w) = none := by
        simp only [surfaceWind]
        rw [if_neg]
        simpa using hw
      exact ⟨hn _ _ (fun c hc => nomatch hc) e rfl rfl rfl, hm _ _ rfl rfl, by rw [e]; rfl⟩
  | visibility v =>
    simp only [metarGroup] at h
    split at h
    · rename_i hv
      obtain ⟨x, hx, h⟩ := bind_ok h
      cases h
      exact ⟨visibility_told rfl (by simp [prevailing, hv]) rfl hx,
        MeasuredBy.nothing rfl rfl ⟨rfl, rfl, rfl, rfl⟩, rfl⟩
    · rename_i hv
      cases h
      refine ⟨hn _ _ (fun c hc => nomatch hc) rfl ?_ rfl rfl, hm _ _ rfl rfl, rfl⟩
      simp only [visibilityTold, reduceCtorEq, if_false, prevailing]
      rw [if_neg (by simpa using hv)]
      rfl
  | cloud c =>
    cases h
    exact ⟨cloud_told rfl rfl rfl, MeasuredBy.nothing rfl rfl ⟨rfl, rfl, rfl, rfl⟩, rfl⟩
  | weather w =>
    simp only [metarGroup] at h
    split at h
    · rename_i hw
      cases h
      exact ⟨weather_told rfl rfl (by simp [presentWeather, hw]),
        MeasuredBy.nothing rfl rfl ⟨rfl, rfl, rfl, rfl⟩, rfl⟩
    · rename_i hw
      cases h
      exact ⟨hn _ _ (fun c hc => nomatch hc) rfl rfl rfl (by simp [presentWeather, hw]),
        hm _ _ rfl rfl, rfl⟩
  | temperature t =>
    obtain ⟨x, hx, h⟩ := bind_ok h
    cases h
    obtain ⟨h1, a, p, q, rfl⟩ := temperatureGroup_ok hx
    exact ⟨Told.nothing rfl rfl (fun c hc => nomatch hc) rfl rfl ⟨rfl, rfl, rfl, rfl, rfl, rfl, rfl, rfl⟩,
      h1, rfl⟩
  | pressure t =>
    obtain ⟨x, hx, h⟩ := bind_ok h
    cases h
    obtain ⟨h1, p, rfl⟩ := pressureGroup_ok hx
    exact ⟨Told.nothing rfl rfl (fun c hc => nomatch hc) rfl rfl ⟨rfl, rfl, rfl, rfl, rfl, rfl, rfl, rfl⟩,
      h1, rfl⟩
  | _ =>
    cases h
    exact ⟨hn _ _ (fun c hc => nomatch hc) rfl rfl rfl rfl, hm _ _ rfl rfl, rfl⟩

theorem tafGroup_ok {imperial : Bool} {g : Group} {r r' : CurrentWeather}
    (h : tafGroup imperial g r = .ok r') : Told imperial anyWind anyVisibility anyWeather g r r' := by
  cases g with
  | keyword k => exact keyword_told rfl rfl rfl h
  | wind w => exact wind_told rfl rfl rfl h
  | visibility v =>
    obtain ⟨x, hx, h⟩ := bind_ok h
    cases h
    exact visibility_told rfl rfl rfl hx
  | cloud c => cases h; exact cloud_told rfl rfl rfl
  | weather w => cases h; exact weather_told rfl rfl rfl
  | _ =>
    cases h
    exact Told.nothing rfl rfl (fun c hc => nomatch hc) rfl rfl ⟨rfl, rfl, rfl, rfl, rfl, rfl, rfl, rfl⟩

/-! ### Several groups -/

/-- What several groups change in the members on wind, visibility, clouds and weather. -/
structure AllTold (imperial : Bool) (wind : Group → Option WindGroup)
    (vis : Group → Option VisibilityGroup) (weather : Group → Option WeatherGroup) (gs : List Group)
    (r r' : CurrentWeather) : Prop where
  windDirection : r'.windDirection =
    (lastOf (fun g => (wind g).bind fun w => w.windDir.degrees.map toSigned) gs).getD r.windDirection
  isWindVariable : r'.isWindVariable = true ↔
    (∃ g ∈ gs, ∃ w, wind g = some w ∧ w.windDir.dirType = .VARIABLE) ∨ r.isWindVariable = true
  windSpeed : r'.windSpeed =
    (lastOf (fun g => (wind g).bind fun w => speedIn imperial w.wSpeed) gs).getD r.windSpeed
  gustSpeed : r'.gustSpeed =
    (lastOf (fun g => (wind g).bind fun w => speedIn imperial w.gSpeed) gs).getD r.gustSpeed
  visibility : r'.visibility = (lastOf (visibilityTold imperial vis) gs).getD r.visibility
  isStormClouds : r'.isStormClouds = true ↔
    (∃ c, .cloud c ∈ gs ∧ c.convtype = .CUMULONIMBUS) ∨ r.isStormClouds = true
  cloud : r'.cloud = (covers gs).foldl addCover r.cloud
  weather : r'.weather = r.weather ++ ((gs.filterMap weather).flatMap fun w =>
    w.weatherPhenomena.flatMap fun p => phenomenonCodes p.qualifier p.descriptor p.weather)

theorem AllTold.nil {imperial : Bool} {wind : Group → Option WindGroup}
    {vis : Group → Option VisibilityGroup} {weather : Group → Option WeatherGroup} (r : CurrentWeather) :
    AllTold imperial wind vis weather [] r r := by
  constructor <;> simp [lastOf_nil, covers]

theorem AllTold.cons {imperial : Bool} {wind : Group → Option WindGroup}
    {vis : Group → Option VisibilityGroup} {weather : Group → Option WeatherGroup} {g : Group}
    {gs : List Group} {r r1 r' : CurrentWeather} (h : Told imperial wind vis weather g r r1)
    (h' : AllTold imperial wind vis weather gs r1 r') : AllTold imperial wind vis weather (g :: gs) r r' := by
  constructor
  · rw [lastOf_cons, getD_or, h'.windDirection, h.windDirection]
  · rw [h'.isWindVariable, h.isWindVariable]
    simp only [List.mem_cons, exists_eq_or_imp, or_assoc, or_left_comm]
  · rw [lastOf_cons, getD_or, h'.windSpeed, h.windSpeed]
  · rw [lastOf_cons, getD_or, h'.gustSpeed, h.gustSpeed]
  · rw [lastOf_cons, getD_or, h'.visibility, h.visibility]
  · rw [h'.isStormClouds, h.isStormClouds]
    constructor
    · rintro (⟨c, hc, h2⟩ | ⟨c, hc, h2⟩ | h2)
      · exact Or.inl ⟨c, List.mem_cons_of_mem _ hc, h2⟩
      · exact Or.inl ⟨c, by rw [hc]; exact List.mem_cons_self .., h2⟩
      · exact Or.inr h2
    · rintro (⟨c, hc, h2⟩ | h2)
      · rcases List.mem_cons.mp hc with hc | hc
        · exact Or.inr (Or.inl ⟨c, hc.symm, h2⟩)
        · exact Or.inl ⟨c, hc, h2⟩
      · exact Or.inr (Or.inr h2)
  · rw [h'.cloud, h.cloud]
    simp only [covers, List.filterMap_cons]
    cases coverOf g <;> rfl
  · rw [h'.weather, h.weather, List.filterMap_cons]
    cases weather g <;> simp

theorem AllTold.append {imperial : Bool} {wind : Group → Option WindGroup}
    {vis : Group → Option VisibilityGroup} {weather : Group → Option WeatherGroup}
    {gs gs' : List Group} {r r1 r' : CurrentWeather} (h : AllTold imperial wind vis weather gs r r1)
    (h' : AllTold imperial wind vis weather gs' r1 r') :
    AllTold imperial wind vis weather (gs ++ gs') r r' := by
  have e : ∀ {α : Type} (f : Group → Option α), lastOf f (gs ++ gs') = (lastOf f gs').or (lastOf f gs) := by
    intro α f
    simp [lastOf, List.findSome?_append]
  constructor
  · rw [e, getD_or, h'.windDirection, h.windDirection]
  · rw [h'.isWindVariable, h.isWindVariable]
    simp only [List.mem_append, or_and_right, exists_or, or_assoc, or_left_comm]
  · rw [e, getD_or, h'.windSpeed, h.windSpeed]
  · rw [e, getD_or, h'.gustSpeed, h.gustSpeed]
  · rw [e, getD_or, h'.visibility, h.visibility]
  · rw [h'.isStormClouds, h.isStormClouds]
    simp only [List.mem_append, or_and_right, exists_or, or_assoc, or_left_comm]
  · rw [h'.cloud, h.cloud]
    simp [covers, List.filterMap_append]
  · rw [h'.weather, h.weather, List.filterMap_append]
    simp

/-- What several groups change in the members on temperature, humidity and pressure. -/
structure AllMeasured (imperial : Bool) (gs : List Group) (wind : Speed) (r r' : CurrentWeather) : Prop where
  airTemperature : r'.airTemperature =
    (lastOf (fun g => (temperatureGroupOf g).bind fun t => temperatureIn imperial t.t) gs).getD r.airTemperature
  relativeHumidity : r'.relativeHumidity =
    (lastOf (fun g => (temperatureGroupOf g).bind fun t => t.relativeHumidity.map integerPart) gs).getD
      r.relativeHumidity
  atmosphericPressure : r'.atmosphericPressure =
    (lastOf (fun g => (qnhOf g).bind (pressureIn imperial)) gs).getD r.atmosphericPressure
  perceivedTemperature : ∀ before g t after, gs = before ++ g :: after → temperatureGroupOf g = some t →
    (∀ g' ∈ after, temperatureGroupOf g' = none) →
    r'.perceivedTemperature =
      (felt imperial t (some ((lastOf (fun g => (surfaceWind g).map (·.wSpeed)) before).getD wind))).getD (-250)
  noPerceivedTemperature : (∀ g ∈ gs, temperatureGroupOf g = none) →
    r'.perceivedTemperature = r.perceivedTemperature

theorem felt_some {imperial : Bool} {g : Group} {t : TemperatureGroup} {wind : Option Speed}
    (h : temperatureGroupOf g = some t) : ∃ n, felt imperial t wind = some n := by
  have h1 : t.t.isReported = true := by
    cases g <;> simp only [temperatureGroupOf, reduceCtorEq] at h
    split at h
    · obtain rfl := Option.some.inj h; assumption
    · cases h
  obtain ⟨tp, ⟨v, f, pr⟩, dp, inc⟩ := t
  cases v with
  | none => cases h1
  | some v =>
    have : ∃ n, temperatureIn imperial (⟨some v, f, pr⟩ : Temperature) = some n := by
      cases imperial <;> exact ⟨_, rfl⟩
    obtain ⟨n, hn⟩ := this
    simp only [felt, hn]
    cases temperatureIn imperial (Temperature.heatIndex _ _) with
    | some m => exact ⟨m, rfl⟩
    | none =>
      cases (wind.bind fun w => temperatureIn imperial (Temperature.windChill _ w)) with
      | some m => exact ⟨m, rfl⟩
      | none => exact ⟨n, rfl⟩

theorem AllMeasured.nil {imperial : Bool} (wind : Speed) (r : CurrentWeather) :
    AllMeasured imperial [] wind r r := by
  constructor
  · rfl
  · rfl
  · rfl
  · intro b g t a h; simp at h
  · intro _; rfl

theorem AllMeasured.cons {imperial : Bool} {g : Group} {gs : List Group} {wind : Speed}
    {r r1 r' : CurrentWeather} (h : MeasuredBy imperial g wind r r1)
    (h' : AllMeasured imperial gs (((surfaceWind g).map (·.wSpeed)).getD wind) r1 r') :
    AllMeasured imperial (g :: gs) wind r r' := by
  constructor
  · rw [lastOf_cons, getD_or, h'.airTemperature, h.airTemperature]
  · rw [lastOf_cons, getD_or, h'.relativeHumidity, h.relativeHumidity]
  · rw [lastOf_cons, getD_or, h'.atmosphericPressure, h.atmosphericPressure]
  · intro b x t a e ht ha
    cases b with
    | nil =>
      simp only [List.nil_append, List.cons.injEq] at e
      obtain ⟨rfl, rfl⟩ := e
      rw [h'.noPerceivedTemperature ha, h.perceivedTemperature, ht]
      simp only [Option.bind_some, lastOf_nil, Option.getD_none]
      obtain ⟨n, hn⟩ := felt_some (imperial := imperial) (wind := some wind) ht
      rw [hn]; rfl
    | cons y b =>
      simp only [List.cons_append, List.cons.injEq] at e
      obtain ⟨rfl, rfl⟩ := e
      rw [h'.perceivedTemperature b x t a rfl ht ha, lastOf_cons, getD_or]
  · intro hn
    rw [h'.noPerceivedTemperature (fun x hx => hn x (List.mem_cons_of_mem _ hx)), h.perceivedTemperature,
      hn g (List.mem_cons_self ..)]
    rfl

/-! ### The loops -/

theorem metarLoop_ok {imperial : Bool} {xs : List GroupInfo} {wind : Speed} {r r' : CurrentWeather}
    (h : metarLoop imperial xs wind r = .ok r') :
    AllTold imperial surfaceWind prevailing presentWeather (beforeTrend (xs.map (·.group))) r r' ∧
    AllMeasured imperial (beforeTrend (xs.map (·.group))) wind r r' := by
  induction xs generalizing wind r with
  | nil =>
    obtain rfl := Except.ok.inj h
    exact ⟨.nil _, .nil _ _⟩
  | cons x xs ih =>
    obtain ⟨g, p, s⟩ := x
    by_cases ht : isTrend g
    · cases g <;> cases ht
      obtain rfl := Except.ok.inj h
      exact ⟨.nil _, .nil _ _⟩
    · have ht' : isTrend g = false := by simpa using ht
      have h2 : (metarGroup imperial g wind r >>= fun s => metarLoop imperial xs s.1 s.2) = .ok r' := by
        cases g <;> first | exact h | cases ht'
      obtain ⟨⟨w, r1⟩, h3, h4⟩ := bind_ok h2
      obtain ⟨e1, e2, rfl⟩ := metarGroup_ok ht' h3
      obtain ⟨i1, i2⟩ := ih h4
      have e : beforeTrend ((⟨g, p, s⟩ :: xs : List GroupInfo).map (·.group)) =
          g :: beforeTrend (xs.map (·.group)) := by
        simp [beforeTrend, ht']
      rw [e]
      exact ⟨.cons e1 i1, .cons e2 i2⟩

theorem tafLoop_ok {imperial : Bool} {xs : List GroupInfo} {n : Nat} {r r' : CurrentWeather}
    (hn : n ≤ 1) (h : tafLoop imperial xs n r = .ok r') :
    AllTold imperial anyWind anyVisibility anyWeather
      (if n = 0 then beforeSecondTrend (xs.map (·.group)) else beforeTrend (xs.map (·.group))) r r' := by
  induction xs generalizing n r with
  | nil =>
    obtain rfl := Except.ok.inj h
    split <;> exact .nil _
  | cons x xs ih =>
    obtain ⟨g, p, s⟩ := x
    by_cases ht : isTrend g
    · cases g <;> cases ht
      rename_i t
      simp only [tafLoop] at h
      by_cases h0 : n = 0
      · subst h0
        rw [if_neg (by omega)] at h
        have := ih (by omega) h
        simpa [beforeSecondTrend, beforeTrend, isTrend] using this
      · rw [if_pos (by omega)] at h
        obtain rfl := Except.ok.inj h
        rw [if_neg h0]
        exact .nil _
    · have ht' : isTrend g = false := by simpa using ht
      have h2 : (tafGroup imperial g r >>= fun r => tafLoop imperial xs n r) = .ok r' := by
        cases g <;> first | exact h | cases ht'
      obtain ⟨r1, h3, h4⟩ := bind_ok h2
      have e1 := tafGroup_ok h3
      have i1 := ih hn h4
      have e : (if n = 0 then beforeSecondTrend ((⟨g, p, s⟩ :: xs : List GroupInfo).map (·.group))
            else beforeTrend ((⟨g, p, s⟩ :: xs : List GroupInfo).map (·.group))) =
          g :: (if n = 0 then beforeSecondTrend (xs.map (·.group)) else beforeTrend (xs.map (·.group))) := by
        split <;> simp [beforeSecondTrend, beforeTrend, ht']
      rw [e]
      exact .cons e1 i1

/-! ### What the loops leave as it is -/

/-- The members on the forecast of temperatures and on the time of the report are the same. -/
def SameTime (r r' : CurrentWeather) : Prop :=
  r'.airTemperatureHigh = r.airTemperatureHigh ∧ r'.airTemperatureLow = r.airTemperatureLow ∧
  r'.updateYear = r.updateYear ∧ r'.updateMonth = r.updateMonth ∧ r'.updateDay = r.updateDay ∧
  r'.updateHour = r.updateHour ∧ r'.updateMinute = r.updateMinute

/-- The members on temperature, humidity and pressure are the same. -/
def SameMeasured (r r' : CurrentWeather) : Prop :=
  r'.airTemperature = r.airTemperature ∧ r'.perceivedTemperature = r.perceivedTemperature ∧
  r'.relativeHumidity = r.relativeHumidity ∧ r'.atmosphericPressure = r.atmosphericPressure

theorem SameTime.rfl {r : CurrentWeather} : SameTime r r := ⟨.refl _, .refl _, .refl _, .refl _, .refl _, .refl _, .refl _⟩

theorem SameMeasured.rfl {r : CurrentWeather} : SameMeasured r r := ⟨.refl _, .refl _, .refl _, .refl _⟩

theorem SameTime.trans {a b c : CurrentWeather} (h : SameTime a b) (h' : SameTime b c) : SameTime a c := by
  simp only [SameTime] at *
  simp [h, h']

theorem SameMeasured.trans {a b c : CurrentWeather} (h : SameMeasured a b) (h' : SameMeasured b c) :
    SameMeasured a c := by
  simp only [SameMeasured] at *
  simp [h, h']

theorem keyword_keeps {imperial : Bool} {k : KeywordGroup} {r r' : CurrentWeather}
    (h : keywordGroup imperial k r = .ok r') : SameTime r r' ∧ SameMeasured r r' := by
  unfold keywordGroup at h
  split at h
  · obtain ⟨_, _, h⟩ := bind_ok h
    obtain rfl := Except.ok.inj h
    exact ⟨SameTime.rfl, SameMeasured.rfl⟩
  · obtain rfl := Except.ok.inj h
    exact ⟨SameTime.rfl, SameMeasured.rfl⟩

theorem wind_keeps {imperial : Bool} {w : WindGroup} {r r' : CurrentWeather}
    (h : windValues imperial w r = .ok r') : SameTime r r' ∧ SameMeasured r r' := by
  obtain ⟨_, _, h⟩ := bind_ok h
  obtain ⟨_, _, h⟩ := bind_ok h
  obtain rfl := Except.ok.inj h
  exact ⟨SameTime.rfl, SameMeasured.rfl⟩

theorem tafGroup_keeps {imperial : Bool} {g : Group} {r r' : CurrentWeather}
    (h : tafGroup imperial g r = .ok r') : SameTime r r' ∧ SameMeasured r r' := by
  cases g with
  | keyword k => exact keyword_keeps h
  | wind w => exact wind_keeps h
  | visibility v =>
    obtain ⟨_, _, h⟩ := bind_ok h
    cases h
    exact ⟨SameTime.rfl, SameMeasured.rfl⟩
  | _ => cases h; exact ⟨SameTime.rfl, SameMeasured.rfl⟩

theorem metarGroup_keeps {imperial : Bool} {g : Group} {wind : Speed} {r : CurrentWeather}
    {x : Speed × CurrentWeather} (h : metarGroup imperial g wind r = .ok x) : SameTime r x.2 := by
  cases g with
  | keyword k =>
    obtain ⟨_, hx, h⟩ := bind_ok h
    cases h
    exact (keyword_keeps hx).1
  | wind w =>
    simp only [metarGroup] at h
    split at h
    · obtain ⟨_, hx, h⟩ := bind_ok h
      cases h
      exact (wind_keeps hx).1
    · cases h; exact SameTime.rfl
  | visibility v =>
    simp only [metarGroup] at h
    split at h
    · obtain ⟨_, _, h⟩ := bind_ok h
      cases h
      exact SameTime.rfl
    · cases h; exact SameTime.rfl
  | weather w =>
    simp only [metarGroup] at h
    split at h <;> cases h <;> exact SameTime.rfl
  | temperature t =>
    obtain ⟨_, hx, h⟩ := bind_ok h
    cases h
    obtain ⟨-, a, p, q, rfl⟩ := temperatureGroup_ok hx
    exact SameTime.rfl
  | pressure t =>
    obtain ⟨_, hx, h⟩ := bind_ok h
    cases h
    obtain ⟨-, p, rfl⟩ := pressureGroup_ok (wind := wind) hx
    exact SameTime.rfl
  | _ => cases h; exact SameTime.rfl

theorem metarLoop_keeps {imperial : Bool} {xs : List GroupInfo} {wind : Speed} {r r' : CurrentWeather}
    (h : metarLoop imperial xs wind r = .ok r') : SameTime r r' := by
  induction xs generalizing wind r with
  | nil => cases h; exact SameTime.rfl
  | cons x xs ih =>
    unfold metarLoop at h
    split at h
    · cases h; exact SameTime.rfl
    · obtain ⟨y, hy, h⟩ := bind_ok h
      exact (metarGroup_keeps hy).trans (ih h)

theorem tafLoop_keeps {imperial : Bool} {xs : List GroupInfo} {n : Nat} {r r' : CurrentWeather}
    (h : tafLoop imperial xs n r = .ok r') : SameTime r r' ∧ SameMeasured r r' := by
  induction xs generalizing n r with
  | nil => cases h; exact ⟨SameTime.rfl, SameMeasured.rfl⟩
  | cons x xs ih =>
    unfold tafLoop at h
    split at h
    · split at h
      · cases h; exact ⟨SameTime.rfl, SameMeasured.rfl⟩
      · exact ih h
    · obtain ⟨y, hy, h⟩ := bind_ok h
      have h1 := tafGroup_keeps hy
      have h2 := ih h
      exact ⟨h1.1.trans h2.1, h1.2.trans h2.2⟩

end Metaf.Summary
