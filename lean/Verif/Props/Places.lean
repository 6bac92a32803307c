import Verif.Props.Contents
import Verif.Props.Measurements
import Verif.Proofs.Util

/-!
C138: in which parts of a report each type of group is found, for every group of the result of parsing any
text at all.
-/

set_option linter.unusedSectionVars false

namespace Metaf.Props

open Metaf Metaf.Spec

/-! ### Specification -/

/-- Kind of a group, with its type if the kind has types. -/
inductive Variety
  | keyword (t : KeywordType) | location | reportTime | trend (t : TrendType) | wind (t : WindType)
  | visibility (t : VisibilityType) | cloud (t : CloudGroupType) | weather (t : WeatherGroupType)
  | temperature (t : TemperatureGroupType) | pressure (t : PressureGroupType) | runwayState (t : RunwayStateType)
  | seaSurface | minMaxTemperature (t : MinMaxType) | precipitation (t : PrecipitationType)
  | layerForecast (t : LayerForecastType) | pressureTendency (t : PressureTendencyType) | cloudTypes
  | lowMidHighCloud | lightning | vicinity (t : VicinityType) | misc (t : MiscType) | unknown
  deriving DecidableEq, Repr

/-- The variety of a group: its kind and what `type()` returns. -/
def varietyOf : Group → Variety
  | .keyword g => .keyword g.t
  | .location _ => .location
  | .reportTime _ => .reportTime
  | .trend g => .trend g.t
  | .wind g => .wind g.windType
  | .visibility g => .visibility g.visType
  | .cloud g => .cloud g.tp
  | .weather g => .weather g.t
  | .temperature g => .temperature g.tp
  | .pressure g => .pressure g.t
  | .runwayState g => .runwayState g.tp
  | .seaSurface _ => .seaSurface
  | .minMaxTemperature g => .minMaxTemperature g.t
  | .precipitation g => .precipitation g.precType
  | .layerForecast g => .layerForecast g.layerType
  | .pressureTendency g => .pressureTendency g.tendencyType
  | .cloudTypes _ => .cloudTypes
  | .lowMidHighCloud _ => .lowMidHighCloud
  | .lightning _ => .lightning
  | .vicinity g => .vicinity g.t
  | .misc g => .misc g.groupType
  | .unknown _ => .unknown

/-- The parts of a report in which a variety of group is found. -/
def placesOf : Variety → List ReportPart
  | .keyword .METAR | .keyword .SPECI | .keyword .TAF | .keyword .AMD => [.HEADER]
  | .keyword .COR => [.HEADER, .METAR]
  | .keyword .NIL | .keyword .CNL => [.HEADER, .METAR, .TAF]
  | .keyword .AUTO => [.METAR]
  | .keyword .CAVOK | .keyword .RMK => [.METAR, .TAF]
  | .keyword .MAINTENANCE_INDICATOR => [.UNKNOWN, .HEADER, .METAR, .TAF, .RMK]
  | .keyword .AO1 | .keyword .AO2 | .keyword .AO1A | .keyword .AO2A | .keyword .NOSPECI => [.RMK]
  | .location | .reportTime => [.HEADER]
  | .trend .NOSIG | .trend .UNTIL | .trend .AT => [.METAR]
  | .trend .BECMG | .trend .TEMPO | .trend .INTER | .trend .FROM => [.METAR, .TAF]
  | .trend .TIME_SPAN => [.HEADER, .METAR, .TAF]
  | .trend .PROB => [.TAF]
  | .wind .SURFACE_WIND | .wind .SURFACE_WIND_CALM | .wind .VARIABLE_WIND_SECTOR
  | .wind .SURFACE_WIND_WITH_VARIABLE_SECTOR | .wind .WIND_SHEAR => [.METAR, .TAF]
  | .wind .WIND_SHEAR_IN_LOWER_LAYERS => [.METAR]
  | .wind .WSCONDS => [.TAF]
  | .wind .WIND_SHIFT | .wind .WIND_SHIFT_FROPA | .wind .PEAK_WIND | .wind .WND_MISG => [.RMK]
  | .visibility .PREVAILING | .visibility .PREVAILING_NDV => [.METAR, .TAF]
  | .visibility .DIRECTIONAL => [.METAR, .TAF, .RMK]
  | .visibility .RVR | .visibility .VARIABLE_RVR => [.METAR]
  | .visibility _ => [.RMK]
  | .cloud .NO_CLOUDS | .cloud .VERTICAL_VISIBILITY => [.METAR, .TAF]
  | .cloud .CLOUD_LAYER => [.METAR, .TAF, .RMK]
  | .cloud _ => [.RMK]
  | .weather .CURRENT | .weather .NSW => [.METAR, .TAF]
  | .weather .RECENT => [.METAR]
  | .weather _ => [.RMK]
  | .temperature .TEMPERATURE_AND_DEW_POINT => [.METAR, .RMK]
  | .temperature _ => [.RMK]
  | .pressure .OBSERVED_QNH => [.METAR, .RMK]
  | .pressure .FORECAST_LOWEST_QNH => [.TAF]
  | .pressure _ => [.RMK]
  | .runwayState _ | .seaSurface => [.METAR]
  | .minMaxTemperature .FORECAST => [.TAF]
  | .minMaxTemperature _ => [.RMK]
  | .precipitation .RAINFALL_9AM_10MIN => [.METAR]
  | .precipitation _ => [.RMK]
  | .layerForecast _ => [.TAF]
  | .pressureTendency _ | .cloudTypes | .lowMidHighCloud | .lightning | .vicinity _ => [.RMK]
  | .misc .SUNSHINE_DURATION_MINUTES | .misc .DENSITY_ALTITUDE | .misc .HAILSTONE_SIZE | .misc .FROIN => [.RMK]
  | .misc .CORRECTED_WEATHER_OBSERVATION => [.METAR]
  | .misc .ISSUER_ID_FN | .misc .ISSUER_ID_FS => [.TAF]
  | .misc _ => [.METAR, .RMK]
  | .unknown => [.UNKNOWN, .HEADER, .METAR, .TAF, .RMK]

/-- The parts in which keywords are recognised according to the documentation, docs/sphinx/api_keywordgroup.rst,
"Recognition" of the keywords in the parts HEADER, METAR, TAF and RMK. -/
def documentedPlaces : KeywordType → List ReportPart
  | .METAR | .SPECI | .TAF | .AMD => [.HEADER]
  | .COR => [.HEADER, .METAR]
  | .NIL | .CNL => [.HEADER, .METAR, .TAF]
  | .AUTO => [.METAR]
  | .CAVOK => [.METAR, .TAF]
  | .RMK => [.HEADER, .METAR, .TAF]
  | .MAINTENANCE_INDICATOR => [.HEADER, .METAR, .TAF, .RMK]
  | .AO1 | .AO2 | .AO1A | .AO2A | .NOSPECI => [.RMK]

variable [FloatIeee]

/-! ### Proof -/

theorem keyword_place {p : ReportPart} {s : Str} {k : KeywordType} (h : IsKeyword p s k) :
    p ∈ placesOf (.keyword k) := by
  obtain ⟨ps, h1, h2⟩ := h
  simp only [keywords, List.mem_cons, Prod.mk.injEq, List.not_mem_nil, or_false] at h1
  rcases h1 with h | h | h | h | h | h | h | h | h | h | h | h | h | h | h | h <;>
    (obtain ⟨-, rfl, rfl⟩ := h; exact h2)

theorem wind_place {p : ReportPart} {g : WindGroup} (h : WindOffers p g) (hp : p = .METAR ∨ p = .TAF ∨ p = .RMK) :
    p ∈ placesOf (.wind g.windType) := by
  have h1 := h.remarks
  have h2 := h.forecast
  have h3 := h.observed
  cases ht : g.windType <;> rw [ht] at h1 h2 h3 <;> simp [placesOf] at h1 h2 h3 ⊢ <;> first | assumption | tauto

theorem trend_place {p : ReportPart} {g : TrendGroup} (h : TrendOffers p g) : p ∈ placesOf (.trend g.t) := by
  have h1 := h.inReport
  have h2 := h.observed
  have h3 := h.forecast
  cases ht : g.t <;> rw [ht] at h1 h2 h3 <;> simp [placesOf] at h1 h2 h3 ⊢ <;> first | assumption | tauto

theorem pressure_place {p : ReportPart} {g : PressureGroup} (h : PressureOffers p g) :
    p ∈ placesOf (.pressure g.t) := by
  have h1 := h.observed
  have h2 := h.forecast
  have h3 := h.remarks
  cases ht : g.t <;> rw [ht] at h1 h2 h3 <;> simp [placesOf] at h1 h2 h3 ⊢ <;> first | assumption | tauto

theorem temperature_place {p : ReportPart} {g : TemperatureGroup} (h : TemperatureOffers p g) :
    p ∈ placesOf (.temperature g.tp) := by
  have h1 := h.part
  have h2 := h.missing
  cases ht : g.tp <;> rw [ht] at h2 <;> simp [placesOf] at h2 ⊢ <;> first | assumption | tauto

theorem minMax_place {p : ReportPart} {g : MinMaxTemperatureGroup} (h : MinMaxOffers p g) :
    p ∈ placesOf (.minMaxTemperature g.t) := by
  have h1 := h.forecast
  have h2 := h.remarks
  cases ht : g.t <;> rw [ht] at h1 h2 <;> simp [placesOf] at h1 h2 ⊢ <;> first | assumption | tauto

theorem precipitation_place {p : ReportPart} {g : PrecipitationGroup} (h : PrecipitationOffers p g) :
    p ∈ placesOf (.precipitation g.precType) := by
  have h1 := h.part
  cases ht : g.precType <;> rw [ht] at h1 <;> simp [placesOf] at h1 ⊢ <;> first | assumption | tauto

theorem misc_place {p : ReportPart} {g : MiscGroup} (h : MiscOffers p g) (hp : p = .METAR ∨ p = .TAF ∨ p = .RMK) :
    p ∈ placesOf (.misc g.groupType) := by
  have h1 := h.remarks
  have h2 := h.correction
  have h3 := h.issuer
  cases ht : g.groupType <;> rw [ht] at h1 h2 h3 <;> simp [placesOf] at h1 h2 h3 ⊢ <;> first | assumption | tauto

theorem weather_place {p : ReportPart} {g : WeatherGroup} (h : WeatherOffers p g)
    (hp : p = .METAR ∨ (p = .TAF ∧ g.t ≠ .RECENT) ∨ p = .RMK) : p ∈ placesOf (.weather g.t) := by
  have h1 := h.remarks
  cases ht : g.t <;> rw [ht] at h1 hp <;> simp [placesOf] at h1 hp ⊢ <;> first | assumption | tauto

/-- Groups which are neither of the above, found in the body. -/
theorem body_place {p : ReportPart} (hp : p = .METAR ∨ p = .TAF) {ws : List Str} {g : Group} (h : Written p ws g) :
    (∀ v, g = .visibility v → p ∈ placesOf (.visibility v.visType)) ∧
    (∀ c, g = .cloud c → p ∈ placesOf (.cloud c.tp)) ∧
    (∀ w, g = .weather w → p = .TAF → w.t ≠ .RECENT) ∧
    (∀ k, g = .keyword k → p ∈ placesOf (.keyword k.t)) := by
  refine ⟨?_, ?_, ?_, ?_⟩
  · rintro v rfl
    cases h with
    | visibility h =>
      rcases h with ⟨k, n, -, -, -, rfl⟩ | ⟨v, x, d, t, o, -, hx, -, rfl⟩ | ⟨d, -, rfl⟩
      · rcases hp with rfl | rfl <;> simp [placesOf]
      · rcases hx with ⟨-, rfl, rfl⟩ | ⟨n, -, rfl, rfl⟩ | ⟨-, rfl, rfl⟩ | ⟨-, rfl, rfl⟩ <;>
          rcases hp with rfl | rfl <;> simp [placesOf]
      · rcases hp with rfl | rfl <;> simp [placesOf]
    | @runwayVisualRange v hp =>
      subst hp
      simp only [RvrText.group]
      split <;> simp [placesOf]
    | milesAndFraction => rcases hp with rfl | rfl <;> simp [placesOf]
  · rintro c rfl
    cases h with
    | noClouds => rcases hp with rfl | rfl <;> simp [placesOf]
    | cloud h =>
      obtain ⟨at_, a, h, ct, c, ha, -, hc, ho, -, rfl⟩ := h
      simp only
      split <;> rcases hp with rfl | rfl <;> simp [placesOf]
  · rintro w rfl rfl
    generalize hg : Group.weather w = g at h
    cases h with
    | noWeather => cases hg; simp
    | weather => cases hg; simp
    | @recentWeather es hne hl hall =>
      exfalso
      obtain ⟨e, es, rfl⟩ := List.exists_cons_of_ne_nil hne
      obtain ⟨⟨-, h⟩, hr⟩ := hall e (by simp)
      rcases h with ⟨h, -⟩ | ⟨h | ⟨-, h⟩, -⟩
      · cases h
      · cases h
      · exact h hr
    | _ => cases hg
  · rintro k rfl
    cases h with
    | keyword h => exact keyword_place h

/-- The same in remarks. -/
theorem remark_place {now : Option Nat} {next : Str} {ws : List Str} {g : Group} (h : Remark now ws g)
    (hl : ¬ Lacking next ws) :
    (∀ v, g = .visibility v → .RMK ∈ placesOf (.visibility v.visType)) ∧
    (∀ c, g = .cloud c → .RMK ∈ placesOf (.cloud c.tp)) ∧
    (∀ k, g = .keyword k → .RMK ∈ placesOf (.keyword k.t)) := by
  refine ⟨?_, ?_, ?_⟩
  · rintro v rfl
    have more : ¬ NeedsMore ws := fun h => hl (.visibility h)
    have hv := visibility_remark h
    clear h
    cases hv with
    | vis => exact absurd .vis more
    | @visAmount as k v x h =>
      have hk : k.isRange = true := by
        by_contra hk
        exact more (.amount h (by simpa using hk))
      simp [hk, placesOf]
    | visWhere h => exact absurd (.place h) more
    | @visAmountRunway as k v x s r h hr => cases hk : k.isRange <;> simp [placesOf]
    | @visWhereAmount s d f t as k v x hw h hk => cases hk : k.isRange <;> cases d <;> simp [placesOf]
    | observer h | observerVis h | observerAmount h =>
      simp only [List.mem_cons, Prod.mk.injEq, List.not_mem_nil, or_false] at h
      rcases h with ⟨-, rfl⟩ | ⟨-, rfl⟩ <;> simp [placesOf]
    | _ => simp [placesOf]
  · rintro c rfl
    have hv := cloud_remark h
    clear h
    cases hv with
    | ceilingHeight h => cases h <;> simp [placesOf]
    | ceilingPlace h => cases h <;> simp [placesOf]
    | _ => simp [placesOf]
  · rintro k rfl
    generalize hv : Group.keyword k = v at h
    cases h with
    | keyword h => cases hv; exact keyword_place h
    | fixed h => simp [fixedWords, ← hv] at h
    | missing h => simp [missingWords, ← hv] at h
    | missingSaid h => simp [missingWords, ← hv] at h
    | _ => cases hv

theorem remark_other {now : Option Nat} {ws : List Str} {g : Group} (h : Remark now ws g) :
    g.index ≠ 1 ∧ g.index ≠ 2 := by
  cases h with
  | fixed h =>
    simp only [fixedWords, List.mem_cons, Prod.mk.injEq, List.not_mem_nil, or_false] at h
    rcases h with ⟨-, rfl⟩ | ⟨-, rfl⟩ | ⟨-, rfl⟩ | ⟨-, rfl⟩ | ⟨-, rfl⟩ | ⟨-, rfl⟩ | ⟨-, rfl⟩ <;> simp [Group.index]
  | missing h | missingSaid h =>
    simp only [missingWords, List.mem_cons, Prod.mk.injEq, List.not_mem_nil, or_false] at h
    rcases h with ⟨-, rfl, rfl⟩ | ⟨-, rfl, rfl⟩ | ⟨-, rfl, rfl⟩ | ⟨-, rfl, rfl⟩ | ⟨-, rfl, rfl⟩ | ⟨-, rfl, rfl⟩ <;>
      simp [Group.index]
  | _ => simp [Group.index]

theorem body_other {p : ReportPart} {ws : List Str} {g : Group} (h : Written p ws g) :
    g.index ≠ 1 ∧ g.index ≠ 2 ∧ ∀ u, g ≠ .unknown u := by
  cases h <;> simp [Group.index]

/-! ### Claims -/

/-- C138. Every group of every result is in one of the parts where groups of its kind and type are found. -/
theorem C138_places (report : Str) (limit : Nat) (r : ParseResult) (h : Result report limit r) :
    ∀ x ∈ r.groups, x.reportPart ∈ placesOf (varietyOf x.group) := by
  intro x hx
  have h1 := C78_wind report limit r h x hx
  have h2 := C79_trend report limit r h x hx
  have h3 := C80_weather report limit r h x hx
  have hall := all_hold h x hx
  cases C75_said h x hx with
  | @unknown u p s =>
    have : p ∈ [ReportPart.UNKNOWN, .HEADER, .METAR, .TAF, .RMK] := by cases p <;> simp
    exact this
  | header hw =>
    cases hw with
    | keyword h => exact keyword_place h
    | location => simp [varietyOf, placesOf]
    | time => simp [varietyOf, placesOf]
    | period => exact trend_place (h2 _ rfl)
  | afterNil h => exact keyword_place h
  | @body p s g hp hw hu =>
    obtain ⟨b1, b2, b3, b4⟩ := body_place hp hw
    have hp' : p = .METAR ∨ p = .TAF ∨ p = .RMK := hp.imp_right Or.inl
    cases g with
    | keyword => exact b4 _ rfl
    | wind => exact wind_place (h1 _ rfl) hp'
    | trend => exact trend_place (h2 _ rfl)
    | weather =>
      refine weather_place (h3 _ rfl) ?_
      rcases hp with rfl | rfl
      · simp
      · exact Or.inr (Or.inl ⟨rfl, b3 _ rfl rfl⟩)
    | visibility => exact b1 _ rfl
    | cloud => exact b2 _ rfl
    | temperature => exact temperature_place hall
    | pressure => exact pressure_place hall
    | minMaxTemperature => exact minMax_place hall
    | precipitation => exact precipitation_place hall
    | misc => exact misc_place hall hp'
    | runwayState | seaSurface | layerForecast | pressureTendency | cloudTypes | lightning | vicinity =>
      exact List.mem_singleton.mpr hall.part
    | lowMidHighCloud => rw [show p = .RMK from hall]; simp [varietyOf, placesOf]
    | location => exact absurd rfl (body_other hw).1
    | reportTime => exact absurd rfl (body_other hw).2.1
    | unknown u => exact absurd rfl ((body_other hw).2.2 u)
  | @remark s g next hr hl =>
    obtain ⟨b1, b2, b3⟩ := remark_place hr hl
    cases g with
    | keyword => exact b3 _ rfl
    | wind => exact wind_place (h1 _ rfl) (by simp)
    | trend => exact trend_place (h2 _ rfl)
    | weather => exact weather_place (h3 _ rfl) (by simp)
    | visibility g => exact b1 g rfl
    | cloud g => exact b2 g rfl
    | temperature => exact temperature_place hall
    | pressure => exact pressure_place hall
    | minMaxTemperature => exact minMax_place hall
    | precipitation => exact precipitation_place hall
    | misc => exact misc_place hall (by simp)
    | runwayState | seaSurface | layerForecast => exact absurd hall.part (by simp)
    | location x => exact absurd rfl (remark_other hr).1
    | reportTime x => exact absurd rfl (remark_other hr).2
    | unknown x => simp [settled, varietyOf, placesOf]
    | _ => simp [settled, varietyOf, placesOf]
  | remnant => simp [varietyOf, placesOf]

/-! ### Every entry of the table is needed -/

/-- All varieties of groups. -/
def varieties : List Variety :=
  ([.METAR, .SPECI, .TAF, .AMD, .NIL, .CNL, .COR, .AUTO, .CAVOK, .RMK, .MAINTENANCE_INDICATOR, .AO1, .AO2, .AO1A,
    .AO2A, .NOSPECI] : List KeywordType).map .keyword ++
  [.location, .reportTime] ++
  ([.NOSIG, .BECMG, .TEMPO, .INTER, .FROM, .UNTIL, .AT, .TIME_SPAN, .PROB] : List TrendType).map .trend ++
  ([.SURFACE_WIND, .SURFACE_WIND_CALM, .VARIABLE_WIND_SECTOR, .SURFACE_WIND_WITH_VARIABLE_SECTOR, .WIND_SHEAR,
    .WIND_SHEAR_IN_LOWER_LAYERS, .WIND_SHIFT, .WIND_SHIFT_FROPA, .PEAK_WIND, .WSCONDS, .WND_MISG] :
    List WindType).map .wind ++
  ([.PREVAILING, .PREVAILING_NDV, .DIRECTIONAL, .RUNWAY, .RVR, .SURFACE, .TOWER, .SECTOR, .VARIABLE_PREVAILING,
    .VARIABLE_DIRECTIONAL, .VARIABLE_RUNWAY, .VARIABLE_RVR, .VARIABLE_SECTOR, .VIS_MISG, .RVR_MISG, .RVRNO, .VISNO] :
    List VisibilityType).map .visibility ++
  ([.NO_CLOUDS, .CLOUD_LAYER, .VERTICAL_VISIBILITY, .CEILING, .VARIABLE_CEILING, .CHINO, .CLD_MISG, .OBSCURATION] :
    List CloudGroupType).map .cloud ++
  ([.CURRENT, .RECENT, .EVENT, .NSW, .PWINO, .WX_MISG, .TSNO, .TS_LTNG_TEMPO_UNAVBL] :
    List WeatherGroupType).map .weather ++
  ([.TEMPERATURE_AND_DEW_POINT, .T_MISG, .TD_MISG] : List TemperatureGroupType).map .temperature ++
  ([.OBSERVED_QNH, .FORECAST_LOWEST_QNH, .OBSERVED_QFE, .OBSERVED_SLP, .SLPNO, .PRES_MISG] :
    List PressureGroupType).map .pressure ++
  ([.RUNWAY_STATE, .RUNWAY_CLRD, .RUNWAY_SNOCLO, .RUNWAY_NOT_OPERATIONAL, .AERODROME_SNOCLO] :
    List RunwayStateType).map .runwayState ++
  [.seaSurface] ++
  ([.OBSERVED_6_HOURLY, .OBSERVED_24_HOURLY, .FORECAST] : List MinMaxType).map .minMaxTemperature ++
  ([.TOTAL_PRECIPITATION_HOURLY, .SNOW_DEPTH_ON_GROUND, .FROZEN_PRECIP_3_OR_6_HOURLY, .FROZEN_PRECIP_3_HOURLY,
    .FROZEN_PRECIP_6_HOURLY, .FROZEN_PRECIP_24_HOURLY, .SNOW_6_HOURLY, .WATER_EQUIV_OF_SNOW_ON_GROUND,
    .ICE_ACCRETION_FOR_LAST_HOUR, .ICE_ACCRETION_FOR_LAST_3_HOURS, .ICE_ACCRETION_FOR_LAST_6_HOURS,
    .SNOW_INCREASING_RAPIDLY, .PRECIPITATION_ACCUMULATION_SINCE_LAST_REPORT, .RAINFALL_9AM_10MIN, .PNO, .FZRANO,
    .ICG_MISG, .PCPN_MISG] : List PrecipitationType).map .precipitation ++
  ([.ICING_TRACE_OR_NONE, .ICING_LIGHT_MIXED, .ICING_LIGHT_RIME_IN_CLOUD, .ICING_LIGHT_CLEAR_IN_PRECIPITATION,
    .ICING_MODERATE_MIXED, .ICING_MODERATE_RIME_IN_CLOUD, .ICING_MODERATE_CLEAR_IN_PRECIPITATION,
    .ICING_SEVERE_MIXED, .ICING_SEVERE_RIME_IN_CLOUD, .ICING_SEVERE_CLEAR_IN_PRECIPITATION, .TURBULENCE_NONE,
    .TURBULENCE_LIGHT, .TURBULENCE_MODERATE_IN_CLEAR_AIR_OCCASIONAL, .TURBULENCE_MODERATE_IN_CLEAR_AIR_FREQUENT,
    .TURBULENCE_MODERATE_IN_CLOUD_OCCASIONAL, .TURBULENCE_MODERATE_IN_CLOUD_FREQUENT,
    .TURBULENCE_SEVERE_IN_CLEAR_AIR_OCCASIONAL, .TURBULENCE_SEVERE_IN_CLEAR_AIR_FREQUENT,
    .TURBULENCE_SEVERE_IN_CLOUD_OCCASIONAL, .TURBULENCE_SEVERE_IN_CLOUD_FREQUENT, .TURBULENCE_EXTREME] :
    List LayerForecastType).map .layerForecast ++
  ([.NOT_REPORTED, .INCREASING_THEN_DECREASING, .INCREASING_MORE_SLOWLY, .INCREASING, .INCREASING_MORE_RAPIDLY,
    .STEADY, .DECREASING_THEN_INCREASING, .DECREASING_MORE_SLOWLY, .DECREASING, .DECREASING_MORE_RAPIDLY,
    .RISING_RAPIDLY, .FALLING_RAPIDLY] : List PressureTendencyType).map .pressureTendency ++
  [.cloudTypes, .lowMidHighCloud, .lightning] ++
  ([.THUNDERSTORM, .CUMULONIMBUS, .CUMULONIMBUS_MAMMATUS, .TOWERING_CUMULUS, .ALTOCUMULUS_CASTELLANUS,
    .STRATOCUMULUS_STANDING_LENTICULAR, .ALTOCUMULUS_STANDING_LENTICULAR, .CIRROCUMULUS_STANDING_LENTICULAR,
    .ROTOR_CLOUD, .VIRGA, .PRECIPITATION_IN_VICINITY, .FOG, .FOG_SHALLOW, .FOG_PATCHES, .HAZE, .SMOKE, .BLOWING_SNOW,
    .BLOWING_SAND, .BLOWING_DUST] : List VicinityType).map .vicinity ++
  ([.SUNSHINE_DURATION_MINUTES, .CORRECTED_WEATHER_OBSERVATION, .DENSITY_ALTITUDE, .HAILSTONE_SIZE,
    .COLOUR_CODE_BLUE_PLUS, .COLOUR_CODE_BLUE, .COLOUR_CODE_WHITE, .COLOUR_CODE_GREEN, .COLOUR_CODE_YELLOW,
    .COLOUR_CODE_YELLOW1, .COLOUR_CODE_YELLOW2, .COLOUR_CODE_AMBER, .COLOUR_CODE_RED, .COLOUR_CODE_BLACKBLUE_PLUS,
    .COLOUR_CODE_BLACKBLUE, .COLOUR_CODE_BLACKWHITE, .COLOUR_CODE_BLACKGREEN, .COLOUR_CODE_BLACKYELLOW,
    .COLOUR_CODE_BLACKYELLOW1, .COLOUR_CODE_BLACKYELLOW2, .COLOUR_CODE_BLACKAMBER, .COLOUR_CODE_BLACKRED, .FROIN,
    .ISSUER_ID_FS, .ISSUER_ID_FN] : List MiscType).map .misc ++
  [.unknown]

theorem varieties_all (v : Variety) : v ∈ varieties := by
  have key : ∀ {α : Type} (f : α → Variety) (l : List α) (x : α), x ∈ l → f x ∈ l.map f :=
    fun f l x h => List.mem_map.mpr ⟨x, h, rfl⟩
  cases v with
  | keyword t | trend t | wind t | visibility t | cloud t | weather t | temperature t | pressure t | runwayState t
  | minMaxTemperature t | precipitation t | layerForecast t | pressureTendency t | vicinity t | misc t =>
    cases t <;> decide +kernel
  | _ => decide +kernel

/-- Reports in which they are found. -/
def samples : List Str :=
  [c!"METAR COR ABCD 010000Z AUTO COR 00000KT 10005KT 220V300 220V300 WS010/10010KT WS R10 9999 " ++
     c!"9999NDV 2000NE R10/0500 R10/0500V0600 CAVOK NSC VV001 FEW010 RA NSW RERA 10/10 Q1000 CCA $ " ++
     c!"XXX",
   c!"METAR ABCD 010000Z 10005KT R10/SNOCLO R10/CLRD70 R10/449970 R10/440170 SNOCLO W10/S5 " ++
     c!"RF00.0/000.0 NOSIG BECMG AT1000 TEMPO INTER XXX FM1000 XXX TL1000 AT1000 XXX 1000/1100 RMK",
   c!"METAR ABCD 010000Z BLU+ BLU WHT GRN YLO YLO1 YLO2 AMB RED BLACKBLU+ BLACKBLU BLACKWHT " ++
     c!"BLACKGRN BLACKYLO BLACKYLO1 BLACKYLO2 BLACKAMB BLACKRED",
   c!"METAR ABCD 010000Z RMK BLU+ BLU WHT GRN YLO YLO1 YLO2 AMB RED BLACKBLU+ BLACKBLU BLACKWHT " ++
     c!"BLACKGRN BLACKYLO BLACKYLO1 BLACKYLO2 BLACKAMB BLACKRED FROIN 98100 DENSITY ALT 100FT GR 1 " ++
     c!"3/4",
   c!"METAR ABCD 010000Z RMK WSHFT 30 WSHFT 30 FROPA PK WND 28045/15 WND MISG $ AO1 AO2 AO1A AO2A " ++
     c!"NOSPECI XXX",
   c!"METAR ABCD 010000Z RMK VIS 1/2V2 VIS MISG VIS 1/2 R10 VIS 1/2V2 R10 VIS NE 1/2 VIS NE 1/2V2 " ++
     c!"VIS NE-SE 1/2 VIS NE-SE 1/2V2 SFC VIS 1/2 TWR VIS 1/2 RVR MISG RVRNO VISNO",
   c!"METAR ABCD 010000Z RMK FEW V SCT CIG 010 CIG 010V020 CHINO CLD MISG FU FEW010 RAB10 PWINO " ++
     c!"WX MISG TSNO TS/LTNG TEMPO UNAVBL T00100010 T MISG TD MISG Q1000 QFE750 SLP100 SLPNO PRES " ++
     c!"MISG",
   c!"METAR ABCD 010000Z RMK 10100 401000010 P0010 60010 4/010 70010 931010 933010 I1010 I3010 " ++
     c!"I6010 SNINCR 1/10 PP010 PNO FZRANO ICG MISG PCPN MISG",
   c!"METAR ABCD 010200Z RMK 60010",
   c!"METAR ABCD 010100Z RMK 60010",
   c!"METAR ABCD 010000Z RMK 5/010 50010 51010 52010 53010 54010 55010 56010 57010 58010 PRESRR " ++
     c!"PRESFR SC1 8/111 LTG",
   c!"METAR ABCD 010000Z RMK TS NE CB NE CBMAM NE TCU NE ACC NE SCSL NE ACSL NE CCSL NE ROTOR CLD " ++
     c!"NE VIRGA NE VCSH NE FOG NE MIFG NE BCFG NE HAZE NE SMOKE NE BLSN NE BLSA NE BLDU NE",
   c!"TAF ABCD 010000Z 0100/0200 00000KT 10005KT 220V300 220V300 WS010/10010KT WSCONDS 9999 " ++
     c!"9999NDV 2000NE CAVOK NSC VV001 FEW010 RA NSW QNH2992INS TX10/0100Z FS20000 FN20000 XXX " ++
     c!"BECMG TEMPO INTER XXX FM010000 XXX 0100/0200 PROB40 RMK",
   c!"TAF ABCD 010000Z 0100/0200 600100 610100 620100 630100 640100 650100 660100 670100 680100 " ++
     c!"690100 500100 510100 520100 530100 540100 550100 560100 570100 580100 590100 5X0100",
   c!"SPECI $", c!"TAF AMD ABCD NIL $", c!"METAR CNL", c!"METAR XXX", c!"METAR ABCD NIL XXX",
   c!"METAR ABCD 010000Z NIL", c!"METAR ABCD 010000Z CNL",
   c!"TAF ABCD 010000Z 0100/0200 NIL", c!"TAF ABCD 010000Z 0100/0200 CNL", c!"TAF ABCD 010000Z 0100/0200 10005KT $"]

/-- What is found in a report, and where. -/
def found (report : Str) : List (ReportPart × Variety) :=
  match Parser.parse report 200 with
  | .ok r => r.groups.map fun x => (x.reportPart, varietyOf x.group)
  | .error _ => []

theorem found_result {report : Str} {p : ReportPart} {v : Variety} (h : (p, v) ∈ found report) :
    ∃ r, Result report 200 r ∧ ∃ x ∈ r.groups, x.reportPart = p ∧ varietyOf x.group = v := by
  unfold found at h
  split at h
  · rename_i r hr
    obtain ⟨x, hx, e⟩ := List.mem_map.mp h
    cases e
    exact ⟨r, hr, x, hx, rfl, rfl⟩
  · cases h

theorem samples_cover : (let l := samples.flatMap found
    varieties.all fun v => (placesOf v).all fun p => l.any fun x => x == (p, v)) = true := by kernel_rfl

/-- C138. In each of these parts a group of the kind and type is found in the result of some report. -/
theorem C138_found (v : Variety) (p : ReportPart) (h : p ∈ placesOf v) :
    ∃ report r, Result report 200 r ∧ ∃ x ∈ r.groups, x.reportPart = p ∧ varietyOf x.group = v := by
  have h1 := List.all_eq_true.mp (List.all_eq_true.mp samples_cover v (varieties_all v)) p h
  obtain ⟨x, hx, e⟩ := List.any_eq_true.mp h1
  obtain ⟨s, -, hs⟩ := List.mem_flatMap.mp hx
  obtain rfl : x = (p, v) := by simpa using e
  exact ⟨s, found_result hs⟩

/-! ### The documentation of keywords -/

/-- C138. A keyword other than `RMK` is found in a part of a report, other than after the end of a report, just if the
documentation says so. `RMK` is found where it says so except in the header. -/
theorem C138_documented_partial (k : KeywordType) (p : ReportPart) (hp : p ≠ .UNKNOWN) (h : k = .RMK → p ≠ .HEADER) :
    (∃ report r, Result report 200 r ∧ ∃ x ∈ r.groups, x.reportPart = p ∧ x.group = .keyword ⟨k⟩) ↔
      p ∈ documentedPlaces k := by
  have e : p ∈ placesOf (.keyword k) ↔ p ∈ documentedPlaces k := by
    cases k <;> cases p <;> simp_all [placesOf, documentedPlaces]
  rw [← e]
  constructor
  · rintro ⟨report, r, hr, x, hx, rfl, hg⟩
    have := C138_places report 200 r hr x hx
    rwa [hg] at this
  · intro hm
    obtain ⟨report, r, hr, x, hx, e1, e2⟩ := C138_found _ _ hm
    refine ⟨report, r, hr, x, hx, e1, ?_⟩
    cases hg : x.group with
    | keyword y => rw [hg] at e2; cases e2; rfl
    | _ => rw [hg] at e2; cases e2

/-- C138. `RMK` is never found in the header, although the documentation says that it is recognised there. -/
theorem C138_violated : .HEADER ∈ documentedPlaces .RMK ∧ ∀ report limit r, Result report limit r →
    ∀ x ∈ r.groups, x.reportPart = .HEADER → x.group ≠ .keyword ⟨.RMK⟩ := by
  refine ⟨by decide, fun report limit r hr x hx hp hg => ?_⟩
  have := C138_places report limit r hr x hx
  rw [hg, hp] at this
  simp [varietyOf, placesOf] at this

/-! ### Examples -/

/-- Recent weather is found in the body of a weather report only, -/
example (report : Str) (limit : Nat) (r : ParseResult) (h : Result report limit r) (x : GroupInfo) (hx : x ∈ r.groups)
    (g : WeatherGroup) (hg : x.group = .weather g) (ht : g.t = .RECENT) : x.reportPart = .METAR := by
  have := C138_places report limit r h x hx
  rw [hg] at this
  simpa [varietyOf, ht, placesOf] using this

/-- and it is found there in some report. -/
example : ∃ report r, Result report 200 r ∧ ∃ x ∈ r.groups, x.reportPart = .METAR ∧
    varietyOf x.group = .weather .RECENT := C138_found _ _ (by decide)

example : (ReportPart.TAF, Variety.misc .ISSUER_ID_FS) ∈
    found c!"TAF ABCD 010000Z 0100/0200 10005KT FS20000" := by
  have : (found c!"TAF ABCD 010000Z 0100/0200 10005KT FS20000").any (fun x => x == (.TAF, .misc .ISSUER_ID_FS)) = true := by
    kernel_rfl
  obtain ⟨x, hx, e⟩ := List.any_eq_true.mp this
  obtain rfl : x = (.TAF, .misc .ISSUER_ID_FS) := by simpa using e
  exact hx

end Metaf.Props
