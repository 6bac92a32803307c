import Verif.Props.WrittenSummary

/-!
C150: from the words of a TAF report to the summary, if there is no METAR report.
-/

set_option linter.unusedSectionVars false

namespace Metaf.Props

open Metaf Metaf.Spec Metaf.Summary

/-- What is forecast: wind, visibility in metres, weather and layers of clouds. -/
structure Forecast where
  wind : WindText
  visibility : Nat
  weather : List WeatherParts
  clouds : List Layer

/-- The values can be written. -/
structure Forecast.Ok (o : Forecast) : Prop where
  wind : o.wind.Ok
  noShear : o.wind.shear = none
  visibility : o.visibility < 10000
  weather : ∀ e ∈ o.weather, WeatherWord (weatherWritten e.1 e.2.1 e.2.2) .TAF e.1 e.2.1 e.2.2 ∧ e.1 ≠ .RECENT
  weatherCount : o.weather.length ≤ 20
  clouds : ∀ c ∈ o.clouds, c.amount ∈ amountNames ∧ c.height < 1000 ∧ c.convective ∈ convectiveNames ∧
    (c.amount.2 = .OBSCURED → c.convective.2 = .NONE)

/-- The words for what is forecast. -/
def Forecast.words (o : Forecast) : List Str :=
  [o.wind.text, decimal 4 o.visibility] ++ o.weather.map (fun e => weatherWritten e.1 e.2.1 e.2.2) ++
  o.clouds.map (fun c => c.amount.1 ++ decimal 3 c.height ++ c.convective.1)

section

variable [FloatIeee]

/-- The group of the visibility. -/
def Forecast.visibilityGroup (o : Forecast) : VisibilityGroup :=
  { vis := if o.visibility = 9999 then ⟨.MORE_THAN, some 10000, .METERS⟩ else ⟨.NONE, some o.visibility, .METERS⟩ }

/-- The group of the weather. -/
def Forecast.weatherGroup (o : Forecast) : WeatherGroup :=
  { t := .CURRENT, w := o.weather.map fun e => made e.1 e.2.1 e.2.2 }

/-- The groups of layers with their words. -/
def Forecast.later (o : Forecast) : List (Group × List Str) :=
  o.clouds.map (fun c => (.cloud c.group, [c.amount.1 ++ decimal 3 c.height ++ c.convective.1]))

/-- The groups of a forecast with their words. -/
def Forecast.items (o : Forecast) : List (Group × List Str) :=
  [(.wind o.wind.group, [o.wind.text]), (.visibility o.visibilityGroup, [decimal 4 o.visibility])] ++
  ((if o.weather = [] then [] else
    [(.weather o.weatherGroup, o.weather.map fun e => weatherWritten e.1 e.2.1 e.2.2)]) ++ o.later)

theorem forecast_words (o : Forecast) : o.items.flatMap Prod.snd = o.words := by
  have hc : ∀ (l : List Layer) (f : Layer → Str), l.flatMap (fun a => [f a]) = l.map f := fun l f => by
    induction l <;> simp_all
  unfold Forecast.items Forecast.later Forecast.words
  by_cases h : o.weather = []
  · simp [h, List.flatMap_map, hc]
  · simp [h, List.flatMap_map, hc]

/-! ### The words are read -/

theorem taf_stop {w : Str} (h : w ∉ stops .METAR) (hd : w ≠ c!"$") : w ∉ stops .TAF := by
  intro hm
  simp only [stops, List.mem_cons, List.not_mem_nil, or_false] at hm h
  tauto

theorem forecast_written {o : Forecast} (h : o.Ok) :
    ∀ x ∈ o.items, Written .TAF x.2 x.1 ∧ ¬ Unfinished x.2 ∧ ∀ w ∈ x.2, w ∉ stops .TAF := by
  have one : ∀ {s : Str} {g : Group}, Written .TAF [s] g → 4 ≤ s.length →
      Written .TAF [s] g ∧ ¬ Unfinished [s] ∧ ∀ w ∈ [s], w ∉ stops .TAF := by
    intro s g hw hl
    refine ⟨hw, long_not_unfinished (by omega), fun w hm => ?_⟩
    rw [List.mem_singleton.mp hm]
    refine taf_stop (long_not_stop (by omega)) fun e => ?_
    rw [e] at hl
    simp at hl
  intro x hx
  unfold Forecast.items Forecast.later at hx
  simp only [List.mem_append, List.mem_cons, List.not_mem_nil, or_false] at hx
  rcases hx with (rfl | rfl) | hx | hx
  · exact one (.wind (.wind (Or.inr rfl) h.wind)) (by have := wind_length o.wind; omega)
  · refine one (.visibility (Or.inr (Or.inl ⟨_, [], _, _, _, ?_, Or.inl ⟨rfl, rfl, rfl⟩,
      (List.append_nil _).symm, rfl⟩))) (by simp [decimal_length])
    by_cases e : o.visibility = 9999
    · rw [if_pos e, e]
      exact Or.inr (Or.inl ⟨rfl, rfl⟩)
    · rw [if_neg e]
      exact Or.inr (Or.inr ⟨_, by have := h.visibility; omega, rfl, rfl⟩)
  · split at hx
    · cases hx
    · rename_i hne
      rw [List.mem_singleton] at hx
      subst hx
      refine ⟨.weather hne h.weatherCount h.weather, weather_not_unfinished, fun w hw => ?_⟩
      obtain ⟨e, he, rfl⟩ := List.mem_map.mp hw
      refine taf_stop (weather_not_stop _ _ _) fun hd => ?_
      have hq : ∀ q : Qualifier, '$' ∉ qualifierText q := by intro q; cases q <;> decide
      have hd' : ∀ d : Descriptor, '$' ∉ descriptorText d := by intro q; cases q <;> decide
      have hw' : ∀ w : Weather, '$' ∉ weatherText w := by intro q; cases q <;> decide
      have : '$' ∈ weatherWritten e.1 e.2.1 e.2.2 := by rw [hd]; simp
      unfold weatherWritten at this
      simp only [List.mem_append, List.mem_flatten, List.mem_map] at this
      rcases this with (h1 | h1) | ⟨_, ⟨w, -, rfl⟩, h1⟩
      · exact hq _ h1
      · exact hd' _ h1
      · exact hw' _ h1
  · obtain ⟨c, hc, rfl⟩ := List.mem_map.mp hx
    obtain ⟨h1, h2, h3, h4⟩ := h.clouds c hc
    refine one (.cloud ⟨c.amount.1, c.amount.2, some c.height, c.convective.1, c.convective.2, h1, ?_, h3, h4, rfl,
      rfl⟩) ?_
    · intro n hn
      cases hn
      exact h2
    · have ha : ∀ x ∈ amountNames, 2 ≤ x.1.length := by decide
      have := ha _ h1
      simp only [List.length_append, decimal_length]
      omega

/-- What may follow: nothing, or a trend with any groups which are written after it. -/
structure Changes (ex : List (Group × List Str)) : Prop where
  written : ∀ x ∈ ex, Written .TAF x.2 x.1 ∧ ¬ Unfinished x.2 ∧ ∀ w ∈ x.2, w ∉ stops .TAF
  separate : ex.IsChain Separate
  trend : ∀ x ∈ ex.head?, isTrend x.1 = true

theorem forecast_kinds {o : Forecast} {g : Group} (hg : g ∈ o.items.map Prod.fst) :
    g = .wind o.wind.group ∨ g = .visibility o.visibilityGroup ∨ g = .weather o.weatherGroup ∨
    (∃ c ∈ o.clouds, g = .cloud c.group) := by
  obtain ⟨x, hx, rfl⟩ := List.mem_map.mp hg
  unfold Forecast.items Forecast.later at hx
  simp only [List.mem_append, List.mem_cons, List.not_mem_nil, or_false, List.mem_map] at hx
  rcases hx with (rfl | rfl) | hx | ⟨c, hc, rfl⟩
  · exact Or.inl rfl
  · exact Or.inr (Or.inl rfl)
  · split at hx
    · cases hx
    · rw [List.mem_singleton.mp hx]
      exact Or.inr (Or.inr (Or.inl rfl))
  · exact Or.inr (Or.inr (Or.inr ⟨c, hc, rfl⟩))

theorem isTrend_index {g : Group} (h : isTrend g = true) : ∃ t, g = .trend t := by
  cases g <;> first | exact ⟨_, rfl⟩ | cases h

theorem forecast_chain {o : Forecast} {ex : List (Group × List Str)} (hx : Changes ex) :
    (o.items ++ ex).IsChain Separate := by
  have one : ∀ l : List (Group × List Str), (∀ x ∈ l, several x.1 = false) → l.Pairwise Separate := by
    intro l hl
    induction l with
    | nil => exact .nil
    | cons x l ih =>
      exact .cons (fun _ _ => Or.inr (hl x (List.mem_cons_self ..))) (ih fun y hy => hl y (List.mem_cons_of_mem _ hy))
  have rest := one o.later (by
      intro x hx
      unfold Forecast.later at hx
      obtain ⟨c, -, rfl⟩ := List.mem_map.mp hx
      rfl)
  refine List.isChain_append.mpr ⟨List.Pairwise.isChain ?_, hx.separate, ?_⟩
  · unfold Forecast.items
    simp only [List.cons_append, List.nil_append]
    refine .cons ?_ (.cons (fun _ _ => Or.inr rfl) ?_)
    · intro x hx
      refine Or.inl ?_
      unfold Forecast.later at hx
      simp only [List.mem_cons, List.mem_append, List.mem_map] at hx
      rcases hx with rfl | hx | ⟨c, -, rfl⟩
      · exact Nat.ne_of_beq_eq_false rfl
      · split at hx
        · cases hx
        · rw [List.mem_singleton.mp hx]
          exact Nat.ne_of_beq_eq_false rfl
      · exact Nat.ne_of_beq_eq_false rfl
    · split
      · exact rest
      · refine .cons ?_ rest
        intro x hx
        refine Or.inl ?_
        replace hx : x ∈ o.later := hx
        unfold Forecast.later at hx
        obtain ⟨c, -, rfl⟩ := List.mem_map.mp hx
        exact Nat.ne_of_beq_eq_false rfl
  · intro x hxl y hy
    have hm : x.1 ∈ o.items.map Prod.fst := List.mem_map.mpr ⟨x, List.mem_of_getLast? hxl, rfl⟩
    obtain ⟨t, ht⟩ := isTrend_index (hx.trend y hy)
    refine Or.inl ?_
    rw [ht]
    rcases forecast_kinds hm with e | e | e | ⟨c, -, e⟩ <;> rw [e] <;> exact Nat.ne_of_beq_eq_false rfl

theorem taf_header {hs : List (Str × Group)} (h : HeaderText .TAF hs) :
    ∃ l t, hs.map Prod.snd = l ++ [.trend t] ∧ ∀ g ∈ l, Silent g := by
  cases h with
  | @taf cor time l d h d' h' hc _ ht _ _ _ _ =>
    refine ⟨((c!"TAF", Group.keyword ⟨.TAF⟩) :: cor ++ [(l, Group.location ⟨l⟩)] ++ time).map Prod.snd,
      trendMeaning [.span d h d' h'], ?_, ?_⟩
    · rw [List.map_append]
      rfl
    · intro g hg
      obtain ⟨x, hx, rfl⟩ := List.mem_map.mp hg
      simp only [List.mem_append, List.mem_cons, List.not_mem_nil, or_false, List.cons_append] at hx hc
      rcases hx with rfl | (hx | rfl) | hx
      · exact Or.inl ⟨_, by decide, rfl⟩
      · rcases hc with rfl | rfl | rfl
        · cases hx
        · rw [List.mem_singleton.mp hx]
          exact Or.inl ⟨_, by decide, rfl⟩
        · rw [List.mem_singleton.mp hx]
          exact Or.inl ⟨_, by decide, rfl⟩
      · exact Or.inr (Or.inl ⟨_, rfl⟩)
      · rcases ht with rfl | ⟨_, _, _, _, _, _, rfl⟩
        · cases hx
        · rw [List.mem_singleton.mp hx]
          exact Or.inr (Or.inr ⟨_, rfl⟩)

/-- The groups of a TAF report which is written. -/
theorem forecast_gives {o : Forecast} {hs : List (Str × Group)} {ex : List (Group × List Str)} {report : Str}
    (ho : o.Ok) (hh : HeaderText .TAF hs) (hx : Changes ex)
    (hg : Groups report (hs.map Prod.fst ++ (o.words ++ ex.flatMap Prod.snd)))
    (hl : (hs.map Prod.fst ++ (o.words ++ ex.flatMap Prod.snd)).length < 200) :
    ∃ gs l, Gives report .TAF gs ∧ (∀ g ∈ l, Silent g) ∧
      beforeSecondTrend (gs.map (·.group)) = l ++ o.items.map Prod.fst := by
  rw [← forecast_words, ← List.flatMap_append] at hg hl
  obtain ⟨r, hr, ht, he, e⟩ := C70_layout hh (by unfold Forecast.items; simp) (fun x hm =>
    (List.mem_append.mp hm).elim (forecast_written ho x) (hx.written x)) (forecast_chain hx) hg hl
  obtain ⟨l, t, el, hsl⟩ := taf_header hh
  refine ⟨r.groups, l, ⟨r, hr, ht, he, rfl⟩, hsl, ?_⟩
  have e' : r.groups.map (·.group) = l ++ .trend t :: (o.items.map Prod.fst ++ ex.map Prod.fst) := by
    rw [e, List.map_append, List.map_map, List.map_map, List.map_append]
    show hs.map Prod.snd ++ (o.items.map Prod.fst ++ ex.map Prod.fst) = _
    rw [el, List.append_assoc]
    rfl
  have h1 : ∀ g ∈ l, (!isTrend g) = true := fun g hg => by simp [(hsl g hg).says.1]
  have h2 : ∀ g ∈ o.items.map Prod.fst, (!isTrend g) = true := by
    intro g hg
    rcases forecast_kinds hg with rfl | rfl | rfl | ⟨c, -, rfl⟩ <;> rfl
  have h3 : (ex.map Prod.fst).takeWhile (!isTrend ·) = [] := by
    cases ex with
    | nil => rfl
    | cons x ex => rw [List.map_cons, List.takeWhile_cons_of_neg (by simp [hx.trend x rfl])]
  rw [e']
  unfold beforeSecondTrend beforeTrend
  rw [List.takeWhile_append_of_pos h1, List.dropWhile_append_of_pos h1, List.takeWhile_cons_of_neg (by simp [isTrend]),
    List.dropWhile_cons_of_neg (by simp [isTrend]), List.tail_cons, List.takeWhile_append_of_pos h2, h3,
    List.append_nil, List.append_nil]

/-! ### The summary -/

/-- What the summary says on the wind, the sky and the weather of what is forecast. -/
structure Forecast.Said (o : Forecast) (imperial : Bool) (r : CurrentWeather) : Prop where
  windDirection : r.windDirection = match o.wind.dir with
    | .tens n => if o.wind.Calm then -250 else 10 * (n : Int)
    | _ => -250
  isWindVariable : r.isWindVariable = true ↔ o.wind.dir = .varying
  windSpeed : r.windSpeed = perHour imperial o.wind.unit o.wind.speed
  gustSpeed : r.gustSpeed = perHour imperial o.wind.unit o.wind.gust
  visibility : r.visibility = if imperial then ⌊((if o.visibility = 9999 then 10000 else o.visibility : Nat) : Rat) /
      (1609344 / 1000)⌋ else ((if o.visibility = 9999 then 10000 else o.visibility : Nat) : Int)
  weather : r.weather = o.weather.flatMap fun e => phenomenonCodes e.1 e.2.1 e.2.2
  isStormClouds : r.isStormClouds = true ↔ ∃ c ∈ o.clouds, c.convective.2 = .CUMULONIMBUS
  cloud : r.cloud = greatest (fromLastPartly (o.clouds.filterMap fun c => coverOfAmount c.amount.2))
  noMeasurement : r.airTemperature = -250 ∧ r.perceivedTemperature = -250 ∧ r.relativeHumidity = -250 ∧
    r.atmosphericPressure = -250

theorem Silent.saysNothing {g : Group} (h : Silent g) : anyWind g = none ∧ anyVisibility g = none ∧
    anyWeather g = none := by
  rcases h with ⟨k, hk, rfl⟩ | ⟨l, rfl⟩ | ⟨t, rfl⟩ <;> exact ⟨rfl, rfl, rfl⟩

theorem forecast_wind_mem (o : Forecast) : .wind o.wind.group ∈ o.items.map Prod.fst := by
  unfold Forecast.items
  simp

theorem forecast_visibility_mem (o : Forecast) : .visibility o.visibilityGroup ∈ o.items.map Prod.fst := by
  unfold Forecast.items
  simp

theorem forecast_cloud_mem {o : Forecast} {c : Layer} (h : c ∈ o.clouds) : .cloud c.group ∈ o.items.map Prod.fst := by
  have : (Group.cloud c.group, [c.amount.1 ++ decimal 3 c.height ++ c.convective.1]) ∈ o.items := by
    unfold Forecast.items Forecast.later
    exact List.mem_append_right _ (List.mem_append_right _ (List.mem_map.mpr ⟨c, h, rfl⟩))
  exact List.mem_map.mpr ⟨_, this, rfl⟩

theorem filter_forecast {α : Type} (f : Group → Option α) (o : Forecast) (h1 : f (.wind o.wind.group) = none)
    (h2 : f (.visibility o.visibilityGroup) = none) :
    (o.items.map Prod.fst).filterMap f = (if o.weather = [] then [] else (f (.weather o.weatherGroup)).toList) ++
      o.clouds.filterMap fun c => f (.cloud c.group) := by
  unfold Forecast.items Forecast.later
  simp only [List.map_append, List.map_cons, List.map_nil, List.map_map, List.filterMap_append, List.filterMap_cons, h1,
    h2, List.filterMap_nil, List.nil_append, List.filterMap_map]
  congr 1
  by_cases hw : o.weather = []
  · simp [hw]
  · simp only [if_neg hw, List.filterMap_cons, List.filterMap_nil, Function.comp]
    cases f (.weather o.weatherGroup) <;> rfl

theorem taf_phenomena_said {es : List WeatherParts}
    (h : ∀ e ∈ es, WeatherWord (weatherWritten e.1 e.2.1 e.2.2) .TAF e.1 e.2.1 e.2.2 ∧ e.1 ≠ .RECENT) :
    ((es.map fun e => made e.1 e.2.1 e.2.2).flatMap fun p => phenomenonCodes p.qualifier p.descriptor p.weather) =
      es.flatMap fun e => phenomenonCodes e.1 e.2.1 e.2.2 := by
  refine phenomena_said fun e he => ⟨⟨rfl, ?_⟩, (h e he).2⟩
  rcases (h e he).1.2 with ⟨hp, -⟩ | ⟨-, ha⟩
  · cases hp
  · exact Or.inr ⟨Or.inl rfl, ha⟩

/-- C150: without a METAR report, the summary of a TAF report which is written says what was written before its first
change, whatever its header, the blanks between the words, the changes after it and the date. -/
theorem C150_said {o : Forecast} {hs : List (Str × Group)} {ex : List (Group × List Str)} {metar report : Str}
    {y m d : Int} {imperial : Bool} {r : CurrentWeather} (hn : Refused metar .METAR) (ho : o.Ok)
    (hh : HeaderText .TAF hs) (hx : Changes ex)
    (hg : Groups report (hs.map Prod.fst ++ (o.words ++ ex.flatMap Prod.snd)))
    (hl : (hs.map Prod.fst ++ (o.words ++ ex.flatMap Prod.snd)).length < 200)
    (h : getCurrentWeather metar report y m d imperial = .ok r) : o.Said imperial r := by
  obtain ⟨gs, l, hgs, silent, all⟩ := forecast_gives ho hh hx hg hl
  obtain ⟨hk, hm⟩ := C88_taf hn hgs h
  rw [all] at hk
  have last : ∀ {α : Type} {f : Group → Option α} {g0 : Group}, (∀ g, Silent g → f g = none) →
      (∀ g ∈ o.items.map Prod.fst, f g = none ∨ g = g0) → g0 ∈ o.items.map Prod.fst →
      lastOf f (l ++ o.items.map Prod.fst) = f g0 := by
    intro α f g0 h1 h2 h3
    refine lastOf_unique (fun g hg => ?_) (List.mem_append_right _ h3)
    rcases List.mem_append.mp hg with hg | hg
    · exact Or.inl (h1 g (silent g hg))
    · exact h2 g hg
  have wind : ∀ {α : Type} (f : WindGroup → Option α),
      lastOf (fun g => (anyWind g).bind f) (l ++ o.items.map Prod.fst) = f o.wind.group := by
    intro α f
    rw [last (g0 := .wind o.wind.group) (fun g hg => by simp only [hg.saysNothing.1, Option.bind_none]) ?_ (forecast_wind_mem o),
      show anyWind (.wind o.wind.group) = some o.wind.group from rfl]
    · rfl
    · intro g hg
      rcases forecast_kinds hg with rfl | rfl | rfl | ⟨c, -, rfl⟩
      · exact Or.inr rfl
      all_goals exact Or.inl rfl
  have hw := ho.wind
  obtain ⟨-, hdir, hsp, hgu, -⟩ := hw
  have nosh := ho.noShear
  constructor
  · rw [hk.windDirection, wind]
    unfold WindText.group
    by_cases hc : o.wind.Calm
    · rw [if_pos hc, hc.2.1]
      simp [hc]
      rfl
    · rw [if_neg hc]
      simp only [if_neg hc]
      cases o.wind.dir <;> rfl
  · rw [hk.isWindVariable]
    constructor
    · rintro ⟨g, hg, w, hgw, hv⟩
      rcases List.mem_append.mp hg with hg | hg
      · rw [(silent g hg).saysNothing.1] at hgw; cases hgw
      · rcases forecast_kinds hg with rfl | rfl | rfl | ⟨c, -, rfl⟩
        · obtain rfl := Option.some.inj hgw
          unfold WindText.group at hv
          split at hv
          · cases hv
          · simp only at hv
            cases hd : o.wind.dir <;> rw [hd] at hv <;> first | rfl | cases hv
        all_goals cases hgw
    · intro hv
      refine ⟨_, List.mem_append_right _ (forecast_wind_mem o), _, rfl, ?_⟩
      unfold WindText.group
      rw [if_neg fun hc => by rw [hc.2.1] at hv; cases hv]
      simp only [hv]
      rfl
  · rw [hk.windSpeed, wind, ← speed_said imperial _ hsp]
    unfold WindText.group
    split <;> rfl
  · rw [hk.gustSpeed, wind, ← speed_said imperial _ hgu]
    unfold WindText.group
    split
    · rename_i hc
      rw [hc.2.2.2]
      rfl
    · rfl
  · rw [hk.visibility, last (g0 := .visibility o.visibilityGroup) ?_ ?_ (forecast_visibility_mem o)]
    · have hv := ho.visibility
      have hd : o.visibilityGroup.visibility.dist = some (if o.visibility = 9999 then 10000 else o.visibility) := by
        show (if o.visibility = 9999 then _ else _ : Distance).dist = _
        split <;> rfl
      have hu : o.visibilityGroup.visibility.distUnit = .METERS := by
        show (if o.visibility = 9999 then _ else _ : Distance).distUnit = _
        split <;> rfl
      have hn : (if o.visibility = 9999 then 10000 else o.visibility) ≤ 10000 := by split <;> omega
      show orNone (distanceIn imperial o.visibilityGroup.visibility) = _
      cases imperial with
      | false => rw [C96_metres hd hn hu]; rfl
      | true => rw [C96_metres_to_miles hd hn hu]; rfl
    · intro g hg
      unfold visibilityTold
      rw [if_neg hg.says.2.2.2.2.2.2.2.2, hg.saysNothing.2.1]
      rfl
    · intro g hg
      rcases forecast_kinds hg with rfl | rfl | rfl | ⟨c, -, rfl⟩
      · exact Or.inl rfl
      · exact Or.inr rfl
      all_goals exact Or.inl rfl
  · have hn : l.filterMap anyWeather = [] :=
      List.filterMap_eq_nil_iff.mpr fun g hg => (silent g hg).saysNothing.2.2
    rw [hk.weather, List.filterMap_append, hn, List.nil_append, ← taf_phenomena_said ho.weather]
    rw [filter_forecast anyWeather o rfl rfl]
    have hc : (o.clouds.filterMap fun c => anyWeather (.cloud c.group)) = [] :=
      List.filterMap_eq_nil_iff.mpr fun _ _ => rfl
    rw [hc, List.append_nil]
    split
    · rename_i hw
      rw [hw]
      rfl
    · show List.flatMap _ [o.weatherGroup] = _
      rw [List.flatMap_singleton]
      rfl
  · rw [hk.isStormClouds]
    constructor
    · rintro ⟨c, hc, hv⟩
      rcases List.mem_append.mp hc with hc | hc
      · exact absurd rfl ((silent _ hc).says.2.2.2.2.2.2.2.1 c)
      · rcases forecast_kinds hc with e | e | e | ⟨k, hk', e⟩
        · cases e
        · cases e
        · cases e
        · obtain rfl := Group.cloud.inj e
          exact ⟨k, hk', hv⟩
    · rintro ⟨c, hc, hv⟩
      exact ⟨c.group, List.mem_append_right _ (forecast_cloud_mem hc), hv⟩
  · have hn : l.filterMap coverOf = [] :=
      List.filterMap_eq_nil_iff.mpr fun g hg => (silent g hg).says.2.2.2.2.1
    rw [hk.cloud]
    unfold covers
    rw [List.filterMap_append, hn, List.nil_append, filter_forecast coverOf o rfl rfl]
    have : (if o.weather = [] then [] else (coverOf (.weather o.weatherGroup)).toList) = [] := by split <;> rfl
    rw [this, List.nil_append]
    rfl
  · exact hm

/-- Wind from variable directions with 3 metres per second, visibility of 10 kilometres or more, light snow showers and
an overcast sky in 700 feet with towering cumulus. -/
def snowy : Forecast where
  wind := ⟨none, .varying, some 3, none, .METERS_PER_SECOND⟩
  visibility := 9999
  weather := [(.LIGHT, .SHOWERS, [.SNOW])]
  clouds := [⟨(c!"OVC", .OVERCAST), 7, (c!"TCU", .TOWERING_CUMULUS)⟩]

/-- The words of this forecast. -/
example : snowy.words = [c!"VRB03MPS", c!"9999", c!"-SHSN", c!"OVC007TCU"] := by decide +kernel

/-- It can be written. -/
theorem snowy_ok : snowy.Ok where
  wind := ⟨fun h hh => (by cases hh), trivial, fun n hn => (by cases hn; norm_num), fun n hn => (by cases hn),
    fun e => (by cases e)⟩
  noShear := rfl
  visibility := by decide
  weather := by
    intro e he
    rw [List.mem_singleton.mp he]
    refine ⟨⟨rfl, Or.inr ⟨Or.inr ⟨rfl, by decide⟩, .intensity rfl (by decide) ⟨by decide, by decide, by decide, by decide,
      by decide, fun _ => ⟨.SNOW, by decide, by decide⟩, nofun⟩⟩⟩, by decide⟩
  weatherCount := by decide
  clouds := by decide

/-- The summary of the report with these words. -/
example {metar : Str} {y m d : Int} {r : CurrentWeather} (hn : Refused metar .METAR)
    (h : getCurrentWeather metar c!"TAF EFHK 171130Z 1712/1812 VRB03MPS 9999 -SHSN OVC007TCU BECMG 33020KT" y m d false =
      .ok r) :
    r.windDirection = -250 ∧ r.isWindVariable = true ∧ r.windSpeed = 10 ∧ r.gustSpeed = -250 ∧ r.visibility = 10000 ∧
      r.isStormClouds = false ∧ r.cloud = .OVERCAST ∧ r.airTemperature = -250 := by
  have hh : HeaderText .TAF ((c!"TAF", .keyword ⟨.TAF⟩) :: [] ++ [(c!"EFHK", .location ⟨c!"EFHK"⟩)] ++
      [(timeText 17 11 30, .reportTime ⟨⟨some 17, 11, 30⟩⟩)] ++
      [((TrendWord.span 17 12 18 12).text, .trend (trendMeaning [.span 17 12 18 12]))]) :=
    .taf (cor := []) (by simp)
      ⟨'E', 'F', 'H', 'K', rfl, by unfold Capital; decide, Or.inl (by unfold Capital; decide),
        Or.inl (by unfold Capital; decide), Or.inl (by unfold Capital; decide)⟩
      (Or.inr ⟨17, 11, 30, by norm_num, by norm_num, by norm_num, rfl⟩) (by norm_num) (by norm_num) (by norm_num)
      (by norm_num)
  have hg := groups_tokens c!"TAF EFHK 171130Z 1712/1812 VRB03MPS 9999 -SHSN OVC007TCU BECMG 33020KT"
  have hw : tokens c!"TAF EFHK 171130Z 1712/1812 VRB03MPS 9999 -SHSN OVC007TCU BECMG 33020KT" =
    [c!"TAF", c!"EFHK", timeText 17 11 30, (TrendWord.span 17 12 18 12).text] ++
      (snowy.words ++ [c!"BECMG", c!"33020KT"]) := by decide +kernel
  rw [hw] at hg
  have hx : Changes [(.trend (trendMeaning [.becmg]), [c!"BECMG"]),
      (.wind (WindText.group ⟨none, .tens 33, some 20, none, .KNOTS⟩), [c!"33020KT"])] := by
    refine ⟨?_, .cons_cons (Or.inl (Nat.ne_of_beq_eq_false rfl)) (.singleton _), fun x hx => by cases hx; rfl⟩
    intro x hx
    rcases List.mem_cons.mp hx with rfl | hx
    · exact ⟨.trend (ws := [.becmg]) (.one trivial (Or.inr rfl)), long_not_unfinished (by decide), by decide⟩
    · rw [List.mem_singleton.mp hx]
      refine ⟨.wind (.wind (w := ⟨none, .tens 33, some 20, none, .KNOTS⟩) (Or.inr rfl) ⟨fun h hh => (by cases hh),
        (by show (33 : Nat) < 100; norm_num), fun n hn => (by cases hn; norm_num), fun n hn => (by cases hn),
        fun e => (by cases e)⟩), long_not_unfinished (by decide), by decide⟩
  have hs := C150_said hn snowy_ok hh hx hg (by decide) h
  refine ⟨hs.windDirection.trans rfl, hs.isWindVariable.mpr rfl, hs.windSpeed.trans ?_, hs.gustSpeed.trans rfl,
    hs.visibility.trans rfl, ?_, hs.cloud.trans rfl, hs.noMeasurement.1⟩
  · norm_num [perHour, snowy, mpsPer]
  · refine Bool.eq_false_iff.mpr fun e => ?_
    obtain ⟨c, hc, hv⟩ := hs.isStormClouds.mp e
    rw [List.mem_singleton.mp hc] at hv
    cases hv

end

end Metaf.Props
