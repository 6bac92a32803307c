import Verif.Props.Body
import Verif.Props.TrendMeaning
import Verif.Props.WindRemarks
import Verif.Props.Misc
import Verif.Props.Location
import Verif.Props.Temperature
import Verif.Props.Pressure
import Verif.Props.RunwayState
import Verif.Props.SeaSurface
import Verif.Props.Precipitation
import Verif.Props.LayerForecast
import Verif.Props.WeatherEvents

/-!
C69: which sequences of words are groups of a report body, and what the groups say, in terms of the
texts only.
-/

set_option linter.unusedSectionVars false

namespace Metaf.Props

open Metaf Metaf.Spec

variable [FloatIeee]

/-! ### Specification -/

/-- Two forecast temperatures: without letters the lower one is the minimum, otherwise the one marked so. -/
inductive ForecastPair : ForecastTemperature → ForecastTemperature → MinMaxTemperatureGroup → Prop
  | rising {a b} : a.label = .none → b.label = .none → ¬ b.lower a → ForecastPair a b
      { t := .FORECAST, minTemp := a.temperature, minTime := some a.time,
        maxTemp := b.temperature, maxTime := some b.time }
  | falling {a b} : a.label = .none → b.label = .none → b.lower a → ForecastPair a b
      { t := .FORECAST, minTemp := b.temperature, minTime := some b.time,
        maxTemp := a.temperature, maxTime := some a.time }
  | minMax {a b} : a.label = .min → b.label = .max → ForecastPair a b
      { t := .FORECAST, minTemp := a.temperature, minTime := some a.time,
        maxTemp := b.temperature, maxTime := some b.time }
  | maxMin {a b} : a.label = .max → b.label = .min → ForecastPair a b
      { t := .FORECAST, minTemp := b.temperature, minTime := some b.time,
        maxTemp := a.temperature, maxTime := some a.time }

/-- One forecast temperature: the minimum or the maximum, or both before it is known which. -/
inductive ForecastSingle : ForecastTemperature → MinMaxTemperatureGroup → Prop
  | min {a} : a.label = .min → ForecastSingle a
      { t := .FORECAST, minTemp := a.temperature, minTime := some a.time }
  | max {a} : a.label = .max → ForecastSingle a
      { t := .FORECAST, maxTemp := a.temperature, maxTime := some a.time }
  | none {a} : a.label = .none → ForecastSingle a
      { t := .FORECAST, minTemp := a.temperature, minTime := some a.time,
        maxTemp := a.temperature, maxTime := some a.time, isIncomplete := true }

/-- Weather as written in one word. -/
abbrev WeatherParts := Qualifier × Descriptor × List Weather

/-- `Written p ws g`: in the body `p` of a report the words `ws` together say what `g` holds. -/
inductive Written (p : ReportPart) : List Str → Group → Prop
  | keyword {s k} : IsKeyword p s k → Written p [s] (.keyword ⟨k⟩)
  | trend {ws} : TrendSentence p ws → Written p (ws.map TrendWord.text) (.trend (trendMeaning ws))
  | wind {ws g} : WindSequence p none ws g → Written p ws (.wind g)
  | visibility {s g} : BodyVisibility s g → Written p [s] (.visibility g)
  | runwayVisualRange {v : RvrText} : p = .METAR → v.Ok → Written p [v.text] (.visibility v.group)
  | milesAndFraction {k n s f} : k = 1 ∨ k = 2 → n < 10 ^ k → MilesGroup s ⟨.NONE, some f, .STATUTE_MILES⟩ →
      f % 10000 ≠ 0 →
      Written p [decimal k n, s] (.visibility { vis := ⟨.NONE, some (10000 * n + f), .STATUTE_MILES⟩ })
  | noClouds {s a} : (s, a) ∈ noClouds → Written p [s] (.cloud { tp := .NO_CLOUDS, amnt := a })
  | cloud {s g} : LayerGroup s g → Written p [s] (.cloud g)
  | noWeather : Written p [c!"NSW"] (.weather { t := .NSW })
  | weather {es : List WeatherParts} : es ≠ [] → es.length ≤ 20 →
      (∀ e ∈ es, WeatherWord (weatherWritten e.1 e.2.1 e.2.2) p e.1 e.2.1 e.2.2 ∧ e.1 ≠ .RECENT) →
      Written p (es.map fun e => weatherWritten e.1 e.2.1 e.2.2)
        (.weather { t := .CURRENT, w := es.map fun e => made e.1 e.2.1 e.2.2 })
  | recentWeather {es : List WeatherParts} : es ≠ [] → es.length ≤ 20 →
      (∀ e ∈ es, WeatherWord (weatherWritten e.1 e.2.1 e.2.2) p e.1 e.2.1 e.2.2 ∧ e.1 = .RECENT) →
      Written p (es.map fun e => weatherWritten e.1 e.2.1 e.2.2)
        (.weather { t := .RECENT, w := es.map fun e => made e.1 e.2.1 e.2.2 })
  | temperature {t : Degrees} {d : Option Degrees} : p = .METAR → t.Ok → (∀ x ∈ d, x.Ok) →
      Written p [t.text ++ c!"/" ++ dewText d]
        (.temperature ⟨.TEMPERATURE_AND_DEW_POINT, t.temperature, dewPoint d, false⟩)
  | pressure {s q} : p = .METAR → QnhWritten s q → Written p [s] (.pressure ⟨.OBSERVED_QNH, q, false⟩)
  | forecastPressure {n} : p = .TAF → n < 10000 → Written p [c!"QNH" ++ decimal 4 n ++ c!"INS"]
      (.pressure ⟨.FORECAST_LOWEST_QNH, ⟨some (inHgOf n), .INCHES_HG⟩, false⟩)
  | snowClosed {s} : p = .METAR → s = c!"SNOCLO" ∨ s = c!"R/SNOCLO" → Written p [s]
      (.runwayState ⟨⟨88, .NONE⟩, .AERODROME_SNOCLO, .NOT_REPORTED, .NOT_REPORTED, ⟨none, .MM⟩,
        ⟨.NOT_REPORTED, 0⟩⟩)
  | runwayState {r rest g} : p = .METAR → r.rNumber < 100 → StateWritten r rest g →
      Written p [runwayText r ++ '/' :: rest] (.runwayState g)
  | seaSurface {a b} {g : SeaSurfaceGroup} : p = .METAR → SeaTemperatureWritten a g.t → WavesWritten b g.wh →
      Written p [c!"W" ++ a ++ c!"/" ++ b] (.seaSurface g)
  | forecastTemperature {a : ForecastTemperature} {g} : p = .TAF → a.Ok → ForecastSingle a g →
      Written p [a.text] (.minMaxTemperature g)
  | forecastTemperatures {a b : ForecastTemperature} {g} : p = .TAF → a.Ok → b.Ok → ForecastPair a b g →
      Written p [a.text, b.text] (.minMaxTemperature g)
  | rainfall {a b recent total} : p = .METAR → RainWritten 2 a recent → RainWritten 3 b total →
      Written p [c!"RF" ++ a ++ c!"/" ++ b] (.precipitation ⟨.RAINFALL_9AM_10MIN, total, recent, false⟩)
  | layer {a b} {g : LayerForecastGroup} : p = .TAF → LayerKindWritten a g.layerType →
      LayerWritten b g.layerBaseHeight g.layerTopHeight → Written p [a ++ b] (.layerForecast g)
  | misc {ws g} : MiscText p ws g → Written p ws (.misc g)

/-! ### Words of a group are written so -/

theorem WindSequence.now {p : ReportPart} (hp : isBody p) {a b : Option Nat} {ws : List Str} {g : WindGroup}
    (h : WindSequence p a ws g) : WindSequence p b ws g := by
  have hr : p ≠ .RMK := by rintro rfl; rcases hp with h | h <;> cases h
  cases h with
  | wind h1 h2 => exact .wind h1 h2
  | windAndSector h1 h2 h3 h4 h5 h6 => exact .windAndSector h1 h2 h3 h4 h5 h6
  | sector h1 h2 h3 => exact .sector h1 h2 h3
  | shearConditions h1 => exact .shearConditions h1
  | shear h1 => exact .shear h1
  | shearAll h1 => exact .shearAll h1
  | shearAllRunways h1 => exact .shearAllRunways h1
  | shearRunway h1 h2 h3 => exact .shearRunway h1 h2 h3
  | missing h => exact absurd h hr
  | missingWind h => exact absurd h hr
  | peak h => exact absurd h hr
  | peakWord h => exact absurd h hr
  | peakWind h => exact absurd h hr
  | shift h => exact absurd h hr
  | shiftFront h => exact absurd h hr
  | shiftTime h => exact absurd h hr
  | shiftTimeFront h => exact absurd h hr

theorem single_forecast {a : ForecastTemperature} {g : MinMaxTemperatureGroup} :
    ForecastSingle a g ↔ g = forecastGroup a := by
  constructor
  · rintro (h | h | h) <;> simp [forecastGroup, h]
  · rintro rfl
    unfold forecastGroup
    split
    · exact .min ‹_›
    · exact .max ‹_›
    · exact .none ‹_›

theorem first_written {p : ReportPart} (hp : isBody p) {md : ReportMetadata} {i : Nat} {w : Str} {g : Group}
    (h : recognise i w p md = .ok (some g)) : Written p [w] g := by
  have hi := (recognise_shape h).1
  interval_cases i
  · obtain ⟨⟨k⟩, hx, rfl⟩ := map_some h; exact .keyword (keyword_parse_iff.mp hx)
  · obtain ⟨x, hx, rfl⟩ := map_some h; rcases hp with rfl | rfl <;> cases hx
  · obtain ⟨x, hx, rfl⟩ := map_some h; rcases hp with rfl | rfl <;> cases hx
  · obtain ⟨x, hx, rfl⟩ := map_some h
    obtain ⟨v, hok, ha, rfl, rfl⟩ := (C45_parse _ _ _).mp hx
    have e := built_meaning (.first hok ha hx)
    rw [e]
    exact .trend (ws := [v]) (.one hok ha)
  · obtain ⟨x, hx, rfl⟩ := map_some h
    exact .wind (((C63_history p md [w] x).mp (by rw [taken_one]; exact hx)).now hp)
  · obtain ⟨x, hx, rfl⟩ := map_some h
    rcases hp with rfl | rfl
    · rcases (C47_metar _ _).mp hx with h | ⟨v, hok, rfl, rfl⟩
      · exact .visibility h
      · exact .runwayVisualRange rfl hok
    · exact .visibility ((C47_taf _ _).mp hx)
  · obtain ⟨x, hx, rfl⟩ := map_some h
    rcases (C48_cloud w p hp x).mp hx with ⟨a, ha, rfl⟩ | h
    · exact .noClouds ha
    · exact .cloud h
  · simp only [recognise] at h
    split at h
    · cases h
    · rename_i r hr
      obtain ⟨x, rfl, rfl⟩ := map_some h
      rcases (C42_parse w p hp md x).mp hr with ⟨rfl, rfl⟩ | ⟨q, d, ws, hw, rfl⟩
      · exact .noWeather
      · obtain rfl := hw.1
        by_cases hq : q = .RECENT
        · rw [if_pos hq]
          exact .recentWeather (es := [(q, d, ws)]) (by simp) (by simp)
            (by intro e he; obtain rfl := List.mem_singleton.mp he; exact ⟨hw, hq⟩)
        · rw [if_neg hq]
          exact .weather (es := [(q, d, ws)]) (by simp) (by simp)
            (by intro e he; obtain rfl := List.mem_singleton.mp he; exact ⟨hw, hq⟩)
  · obtain ⟨x, hx, rfl⟩ := map_some h
    rcases hp with rfl | rfl
    · obtain ⟨t, d, ht, hd, rfl, rfl⟩ := (C51_body _ _).mp hx
      exact .temperature rfl ht hd
    · rw [C51_elsewhere _ _ (by simp) (by simp)] at hx; cases hx
  · obtain ⟨x, hx, rfl⟩ := map_some h
    rcases hp with rfl | rfl
    · obtain ⟨q, hq, rfl⟩ := (C52_body _ _).mp hx
      exact .pressure rfl hq
    · obtain ⟨n, hn, rfl, rfl⟩ := (C52_forecast _ _).mp hx
      exact .forecastPressure rfl hn
  · obtain ⟨x, hx, rfl⟩ := map_some h
    rcases hp with rfl | rfl
    · rcases (C54_state _ _).mp hx with ⟨hs, rfl⟩ | ⟨r, rest, hr, rfl, hs⟩
      · exact .snowClosed rfl hs
      · exact .runwayState rfl hr hs
    · rw [C54_elsewhere _ _ (by simp)] at hx; cases hx
  · obtain ⟨x, hx, rfl⟩ := map_some h
    rcases hp with rfl | rfl
    · obtain ⟨a, b, rfl, ha, hb⟩ := (C55_sea_surface _ _).mp hx
      exact .seaSurface rfl ha hb
    · rw [C55_elsewhere _ _ (by simp)] at hx; cases hx
  · obtain ⟨x, hx, rfl⟩ := map_some h
    rcases hp with rfl | rfl
    · cases hx
    · obtain ⟨f, hf, rfl, rfl⟩ := (fromForecast_iff w x).mp hx
      exact .forecastTemperature rfl hf (single_forecast.mpr rfl)
  · obtain ⟨x, hx, rfl⟩ := map_some h
    rcases hp with rfl | rfl
    · obtain ⟨a, b, r, t, rfl, ha, hb, rfl⟩ := (C56_rainfall _ _ _).mp hx
      exact .rainfall rfl ha hb
    · rw [C56_elsewhere _ _ _ (by simp) (by simp)] at hx; cases hx
  · obtain ⟨x, hx, rfl⟩ := map_some h
    rcases hp with rfl | rfl
    · rw [C57_elsewhere _ _ (by simp)] at hx; cases hx
    · obtain ⟨a, b, rfl, ha, hb⟩ := (C57_layer _ _).mp hx
      exact .layer rfl ha hb
  · obtain ⟨x, hx, rfl⟩ := map_some h; rcases hp with rfl | rfl <;> cases hx
  · obtain ⟨x, hx, rfl⟩ := map_some h; rcases hp with rfl | rfl <;> cases hx
  · obtain ⟨x, hx, rfl⟩ := map_some h; rcases hp with rfl | rfl <;> cases hx
  · obtain ⟨x, hx, rfl⟩ := map_some h; rcases hp with rfl | rfl <;> cases hx
  · obtain ⟨x, hx, rfl⟩ := map_some h; rcases hp with rfl | rfl <;> cases hx
  · obtain ⟨x, hx, rfl⟩ := map_some h
    exact .misc ((C62_history p [w] x).mp (by rw [taken_one]; exact hx))

theorem visibility_closed {g g' : VisibilityGroup} {s : Str} (h : g.incompleteText = .NONE)
    (ha : g.append s = (g', .APPENDED)) : False := by
  simp only [VisibilityGroup.append, h] at ha
  cases ha

theorem app_inj {G : Type} {mk : G → Group} {r : G × AppendResult} {g' : Group}
    (h : (.ok (mk r.1, r.2) : Res (Group × AppendResult)) = .ok (g', .APPENDED)) :
    ∃ x, g' = mk x ∧ r = (x, .APPENDED) := by
  obtain ⟨h1, h2⟩ := Prod.mk.inj (Except.ok.inj h)
  exact ⟨r.1, h1.symm, Prod.ext rfl h2⟩

theorem misc_body {p : ReportPart} (hp : isBody p) {ws : List Str} {g : MiscGroup} (h : MiscText p ws g) :
    g.incompleteText = .NONE := by
  rcases hp with rfl | rfl <;> cases h <;> rfl

theorem more_written {p : ReportPart} (hp : isBody p) {md : ReportMetadata} {ws : List Str} {w : Str} {g g' : Group}
    (hr : Reads p md ws g) (h : Written p ws g)
    (ha : g.append w p md = .ok (g', .APPENDED)) : Written p (ws ++ [w]) g' := by
  have hpl := hr.plain hp
  cases h with
  | keyword => cases ha
  | @trend vs hs =>
    obtain ⟨x, rfl, hx⟩ := app_inj (mk := .trend) ha
    obtain ⟨v, hok, hal, rfl, hc⟩ := append_continues (sentence_built hs) hx
    have := built_meaning (.next (sentence_built hs) hok hal hx)
    rw [this, show vs.map TrendWord.text ++ [v.text] = (vs ++ [v]).map TrendWord.text by simp]
    exact .trend (.more hs hok hal hc)
  | @wind _ g hs =>
    obtain ⟨x, rfl, hx⟩ := app_inj (mk := .wind) ha
    exact .wind (((C63_history p md _ _).mp
      ((taken_snoc hr.ne_nil w x).mpr ⟨g, (C63_history p md _ _).mpr (hs.now hp), hx⟩)).now hp)
  | @visibility s g hs =>
    obtain ⟨x, rfl, hx⟩ := app_inj (mk := .visibility) ha
    rcases hs with ⟨k, n, hk, hn, rfl, rfl⟩ | ⟨v, y, d, t, o, -, -, -, rfl⟩ | ⟨d, -, rfl⟩
    · obtain ⟨f, hf, h0, rfl⟩ := (C47_fraction n (by rcases hk with rfl | rfl <;> omega) w x).mp hx
      exact .milesAndFraction hk hn hf h0
    · exact (visibility_closed rfl hx).elim
    · exact (visibility_closed rfl hx).elim
  | runwayVisualRange hp' hv =>
    obtain ⟨x, rfl, hx⟩ := app_inj (mk := .visibility) ha
    exact (visibility_closed rfl hx).elim
  | milesAndFraction =>
    obtain ⟨x, rfl, hx⟩ := app_inj (mk := .visibility) ha
    exact (visibility_closed rfl hx).elim
  | noClouds => cases ha
  | cloud =>
    obtain ⟨x, rfl, hx⟩ := app_inj (mk := .cloud) ha
    simp only [Plain] at hpl
    simp only [CloudGroup.append, hpl] at hx
    cases hx
  | noWeather =>
    obtain ⟨x, rfl, hx⟩ := app_inj (mk := .weather) ha
    obtain ⟨-, q, d, ws, -, ht, -⟩ := (C42_append _ _ _ _ rfl).mp hx
    split at ht <;> cases ht
  | @weather es hne hl hes =>
    obtain ⟨x, rfl, hx⟩ := app_inj (mk := .weather) ha
    obtain ⟨hlt, q, d, ws, hw, ht, rfl⟩ := (C42_append _ _ _ _ rfl).mp hx
    have hq : q ≠ .RECENT := by intro e; rw [if_pos e] at ht; cases ht
    obtain rfl := hw.1
    have := Written.weather (p := p) (es := es ++ [(q, d, ws)]) (by simp) (by simp at hlt ⊢; omega) (by
      intro e he
      rcases List.mem_append.mp he with he | he
      · exact hes e he
      · obtain rfl := List.mem_singleton.mp he
        exact ⟨hw, hq⟩)
    simpa using this
  | @recentWeather es hne hl hes =>
    obtain ⟨x, rfl, hx⟩ := app_inj (mk := .weather) ha
    obtain ⟨hlt, q, d, ws, hw, ht, rfl⟩ := (C42_append _ _ _ _ rfl).mp hx
    have hq : q = .RECENT := by by_contra e; rw [if_neg e] at ht; cases ht
    obtain rfl := hw.1
    have := Written.recentWeather (p := p) (es := es ++ [(q, d, ws)]) (by simp) (by simp at hlt ⊢; omega) (by
      intro e he
      rcases List.mem_append.mp he with he | he
      · exact hes e he
      · obtain rfl := List.mem_singleton.mp he
        exact ⟨hw, hq⟩)
    simpa using this
  | temperature =>
    obtain ⟨x, rfl, hx⟩ := app_inj (mk := .temperature) ha
    rw [C51_complete _ _ rfl] at hx; cases hx
  | pressure =>
    obtain ⟨x, rfl, hx⟩ := app_inj (mk := .pressure) ha
    rw [C52_complete _ _ rfl] at hx; cases hx
  | forecastPressure =>
    obtain ⟨x, rfl, hx⟩ := app_inj (mk := .pressure) ha
    rw [C52_complete _ _ rfl] at hx; cases hx
  | snowClosed => cases ha
  | runwayState => cases ha
  | seaSurface => cases ha
  | @forecastTemperature a g hp' hok hs =>
    obtain rfl := single_forecast.mp hs
    simp only [Group.append] at ha
    by_cases hb : ∃ b : ForecastTemperature, b.Ok ∧ w = b.text ∧
      ((a.label = .none ∧ b.label = .none) ∨ (a.label = .min ∧ b.label = .max) ∨
      (a.label = .max ∧ b.label = .min))
    · obtain ⟨b, hbo, rfl, ⟨la, lb⟩ | ⟨la, lb⟩ | ⟨la, lb⟩⟩ := hb
      · rw [C44_ordered a b hok hbo la lb] at ha
        obtain ⟨rfl, -⟩ := Prod.mk.inj (Except.ok.inj ha)
        refine .forecastTemperatures hp' hok hbo ?_
        dsimp only
        split
        · exact .falling la lb ‹_›
        · exact .rising la lb ‹_›
      · rw [(C44_labelled a b hok hbo la lb).1] at ha
        obtain ⟨rfl, -⟩ := Prod.mk.inj (Except.ok.inj ha)
        exact .forecastTemperatures hp' hok hbo (.minMax la lb)
      · rw [(C44_labelled b a hbo hok lb la).2] at ha
        obtain ⟨rfl, -⟩ := Prod.mk.inj (Except.ok.inj ha)
        exact .forecastTemperatures hp' hok hbo (.maxMin la lb)
    · rw [C44_other a w (by
        intro b hbo hw
        refine ⟨fun h => hb ⟨b, hbo, hw, Or.inl h⟩, fun h => hb ⟨b, hbo, hw, Or.inr (Or.inl h)⟩,
          fun h => hb ⟨b, hbo, hw, Or.inr (Or.inr h)⟩⟩)] at ha
      cases ha
  | forecastTemperatures hp' hoa hob hs =>
    simp only [Group.append] at ha
    rw [C44_complete _ _ (by cases hs <;> rfl) (by cases hs <;> rfl) (by cases hs <;> rfl)] at ha
    cases ha
  | rainfall =>
    obtain ⟨x, rfl, hx⟩ := app_inj (mk := .precipitation) ha
    cases hx
  | layer => cases ha
  | misc hs =>
    obtain ⟨x, rfl, hx⟩ := app_inj (mk := .misc) ha
    simp only [MiscGroup.append, misc_body hp hs] at hx
    cases hx

theorem reads_written {p : ReportPart} (hp : isBody p) {md : ReportMetadata} {ws : List Str} {g : Group}
    (h : Reads p md ws g) : Written p ws g := by
  induction h with
  | first h => exact first_written hp h
  | more hr ha ih => exact more_written hp hr ih ha

/-! ### What is written so is read -/

theorem reads_one {p : ReportPart} {md : ReportMetadata} {s : Str} {i : Nat} {g : Group}
    (h : recognise i s p md = .ok (some g)) : Reads p md [s] g := .first h

theorem reads_taken {p : ReportPart} {md : ReportMetadata} {ws : List Str} {g : WindGroup}
    (h : taken (WindGroup.parse · p) (WindGroup.append · · md) ws = some g) : Reads p md ws (.wind g) := by
  induction ws using List.reverseRecOn generalizing g with
  | nil => cases h
  | append_singleton ws w ih =>
    by_cases hne : ws = []
    · subst hne
      rw [List.nil_append, taken_one] at h
      exact reads_one (i := 4) (by simp [recognise, h])
    · obtain ⟨g0, h0, ha⟩ := (taken_snoc hne w g).mp h
      exact .more (ih h0) (by simp [Group.append, ha])

theorem reads_sentence {p : ReportPart} {md : ReportMetadata} {ws : List TrendWord} (h : TrendSentence p ws) :
    Reads p md (ws.map TrendWord.text) (.trend (trendMeaning ws)) := by
  induction h with
  | @one w hok ha =>
    refine reads_one (i := 3) ?_
    simp only [recognise, parse_word hok ha, Option.map_some]
    rw [built_meaning (.first hok ha (parse_word hok ha))]
  | @more ws w hs hok ha hc ih =>
    rw [List.map_append]
    rcases C45_append (sentence_built hs) w.text p with ⟨-, g', hg'⟩ | ⟨h1, -⟩
    · refine .more ih ?_
      simp only [Group.append, hg']
      rw [built_meaning (.next (sentence_built hs) hok ha hg')]
    · exact absurd ⟨_, hok, ha, rfl, hc⟩ h1

theorem reads_weather {p : ReportPart} (hp : isBody p) {md : ReportMetadata} (t : WeatherGroupType)
    {es : List WeatherParts} (hne : es ≠ []) (hl : es.length ≤ 20)
    (hes : ∀ e ∈ es, WeatherWord (weatherWritten e.1 e.2.1 e.2.2) p e.1 e.2.1 e.2.2 ∧
      t = if e.1 = .RECENT then .RECENT else .CURRENT) :
    Reads p md (es.map fun e => weatherWritten e.1 e.2.1 e.2.2)
        (.weather { t := t, w := es.map fun e => made e.1 e.2.1 e.2.2 }) := by
  induction es using List.reverseRecOn with
  | nil => exact absurd rfl hne
  | append_singleton es e ih =>
    obtain ⟨hw, ht⟩ := hes e (by simp)
    by_cases h0 : es = []
    · subst h0
      refine reads_one (i := 7) ?_
      have := (C42_parse _ p hp md { t := t, w := [made e.1 e.2.1 e.2.2] }).mpr
        (Or.inr ⟨_, _, _, hw, by rw [ht]⟩)
      simp only [recognise, this]
      rfl
    · rw [List.map_append, List.map_append]
      refine .more (ih h0 (by simp at hl; omega) fun x hx => hes x (by simp [hx])) ?_
      have := (C42_append { t := t, w := es.map fun e => made e.1 e.2.1 e.2.2 } _ _ p rfl).mpr
        ⟨by simp at hl ⊢; omega, _, _, _, hw, ht, rfl⟩
      simp only [Group.append, this]
      rfl

theorem written_reads {p : ReportPart} (hp : isBody p) {md : ReportMetadata} {ws : List Str} {g : Group}
    (h : Written p ws g) : Reads p md ws g := by
  cases h with
  | keyword hk => exact reads_one (i := 0) (by simp [recognise, keyword_parse_iff.mpr hk])
  | trend hs => exact reads_sentence hs
  | wind hs => exact reads_taken ((C63_history p md _ _).mpr (hs.now hp))
  | visibility hs =>
    refine reads_one (i := 5) ?_
    rcases hp with rfl | rfl
    · simp [recognise, (C47_metar _ _).mpr (Or.inl hs)]
    · simp [recognise, (C47_taf _ _).mpr hs]
  | runwayVisualRange hp' hv =>
    subst hp'
    exact reads_one (i := 5) (by simp [recognise, (C47_metar _ _).mpr (Or.inr ⟨_, hv, rfl, rfl⟩)])
  | @milesAndFraction k n s f hk hn hf h0 =>
    have h1 : Reads p md [decimal k n] (.visibility
        { vis := ⟨.NONE, some (10000 * n), .STATUTE_MILES⟩, incompleteText := .INTEGER }) := by
      refine reads_one (i := 5) ?_
      have hs : BodyVisibility (decimal k n)
        { vis := ⟨.NONE, some (10000 * n), .STATUTE_MILES⟩, incompleteText := .INTEGER } :=
        Or.inl ⟨k, n, hk, hn, rfl, rfl⟩
      rcases hp with rfl | rfl
      · simp [recognise, (C47_metar _ _).mpr (Or.inl hs)]
      · simp [recognise, (C47_taf _ _).mpr hs]
    refine .more (ws := [decimal k n]) h1 ?_
    have := (C47_fraction n (by rcases hk with rfl | rfl <;> omega) s _).mpr ⟨f, hf, h0, rfl⟩
    simp only [Group.append, this]
  | noClouds h => exact reads_one (i := 6) (by simp [recognise, (C48_cloud _ p hp _).mpr (Or.inl ⟨_, h, rfl⟩)])
  | cloud h => exact reads_one (i := 6) (by simp [recognise, (C48_cloud _ p hp _).mpr (Or.inr h)])
  | noWeather =>
    exact reads_one (i := 7) (by simp [recognise, (C42_parse _ p hp md _).mpr (Or.inl ⟨rfl, rfl⟩)])
  | weather hne hl hes =>
    exact reads_weather hp _ hne hl fun e he => ⟨(hes e he).1, by rw [if_neg (hes e he).2]⟩
  | recentWeather hne hl hes =>
    exact reads_weather hp _ hne hl fun e he => ⟨(hes e he).1, by rw [if_pos (hes e he).2]⟩
  | temperature hp' ht hd =>
    subst hp'
    exact reads_one (i := 8) (by simp only [recognise, (C51_body _ _).mpr ⟨_, _, ht, hd, rfl, rfl⟩]; rfl)
  | pressure hp' hq =>
    subst hp'
    exact reads_one (i := 9) (by simp only [recognise, (C52_body _ _).mpr ⟨_, hq, rfl⟩]; rfl)
  | forecastPressure hp' hn =>
    subst hp'
    exact reads_one (i := 9) (by simp only [recognise, (C52_forecast _ _).mpr ⟨_, hn, rfl, rfl⟩]; rfl)
  | snowClosed hp' hs =>
    subst hp'
    exact reads_one (i := 10) (by simp only [recognise, (C54_state _ _).mpr (Or.inl ⟨hs, rfl⟩)]; rfl)
  | runwayState hp' hr hs =>
    subst hp'
    exact reads_one (i := 10) (by simp only [recognise, (C54_state _ _).mpr (Or.inr ⟨_, _, hr, rfl, hs⟩)]; rfl)
  | seaSurface hp' ha hb =>
    subst hp'
    exact reads_one (i := 11) (by simp only [recognise, (C55_sea_surface _ _).mpr ⟨_, _, rfl, ha, hb⟩]; rfl)
  | forecastTemperature hp' ha hs =>
    subst hp'
    obtain rfl := single_forecast.mp hs
    refine reads_one (i := 12) ?_
    have := (fromForecast_iff _ _).mpr ⟨_, ha, rfl, rfl⟩
    simp only [recognise, MinMaxTemperatureGroup.parse, this]
    rfl
  | @forecastTemperatures a b g hp' ha hb hs =>
    subst hp'
    have h1 : Reads .TAF md [a.text] (.minMaxTemperature (forecastGroup a)) := by
      refine reads_one (i := 12) ?_
      have := (fromForecast_iff _ _).mpr ⟨_, ha, rfl, rfl⟩
      simp only [recognise, MinMaxTemperatureGroup.parse, this]
      rfl
    refine .more (ws := [a.text]) h1 ?_
    simp only [Group.append]
    cases hs with
    | rising la lb hl => rw [C44_ordered a b ha hb la lb, if_neg hl]
    | falling la lb hl => rw [C44_ordered a b ha hb la lb, if_pos hl]
    | minMax la lb => rw [(C44_labelled a b ha hb la lb).1]
    | maxMin la lb => rw [(C44_labelled b a hb ha lb la).2]
  | rainfall hp' ha hb =>
    subst hp'
    exact reads_one (i := 13)
      (by simp only [recognise, (C56_rainfall _ _ _).mpr ⟨_, _, _, _, rfl, ha, hb, rfl⟩]; rfl)
  | layer hp' ha hb =>
    subst hp'
    exact reads_one (i := 14) (by simp only [recognise, (C57_layer _ _).mpr ⟨_, _, rfl, ha, hb⟩]; rfl)
  | misc hs =>
    have hl : ∃ w, ws = [w] := by rcases hp with rfl | rfl <;> cases hs <;> exact ⟨_, rfl⟩
    obtain ⟨w, rfl⟩ := hl
    have := (C62_history p [w] _).mpr hs
    rw [taken_one] at this
    exact reads_one (i := 20) (by simp [recognise, this])

/-- C69. The words which make up one group in the body of a report, and the group, are exactly those
which the table of texts says. -/
theorem C69_written {p : ReportPart} (hp : p = .METAR ∨ p = .TAF) (md : ReportMetadata) (ws : List Str) (g : Group) :
    Reads p md ws g ↔ Written p ws g := ⟨reads_written hp, written_reads hp⟩

end Metaf.Props
