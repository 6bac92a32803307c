import Verif.Props.Contents

/-!
C81, C82, C83: what the accessors of the groups with measurements and of the groups found only in remarks
give, depending on their type, for every group of the result of parsing any text at all.
-/

set_option linter.unusedSectionVars false

namespace Metaf.Props

open Metaf Metaf.Spec

variable [FloatIeee]

/-! ### Specification -/

/-- What the accessors of a temperature group in part `p` give. -/
structure TemperatureOffers (p : ReportPart) (g : TemperatureGroup) : Prop where
  part : p = .METAR ∨ p = .RMK
  /-- Nothing is given if the data are said to be missing, which is said in remarks only. -/
  missing : g.tp ≠ .TEMPERATURE_AND_DEW_POINT → p = .RMK ∧ g.t.isReported = false ∧ g.dp.isReported = false
  /-- Temperature and dew point are in tenths of a degree in remarks, and in degrees elsewhere. -/
  tenths : (g.t.isReported = true → (g.t.precise = true ↔ p = .RMK)) ∧
    (g.dp.isReported = true → (g.dp.precise = true ↔ p = .RMK))
  /-- In remarks there is no dew point without temperature. -/
  dewPoint : p = .RMK → g.dp.isReported = true → g.t.isReported = true
  /-- Humidity is given just if both are. -/
  humidity : g.relativeHumidity.isSome = true ↔ g.t.isReported = true ∧ g.dp.isReported = true

/-- What the accessors of a pressure group in part `p` give. -/
structure PressureOffers (p : ReportPart) (g : PressureGroup) : Prop where
  /-- Where the types are found. -/
  observed : g.t = .OBSERVED_QNH → p = .METAR ∨ p = .RMK
  forecast : g.t = .FORECAST_LOWEST_QNH ↔ p = .TAF
  remarks : g.t ∈ [.OBSERVED_QFE, .OBSERVED_SLP, .SLPNO, .PRES_MISG] → p = .RMK
  /-- No pressure is given for these types, -/
  missing : g.t ∈ [.SLPNO, .PRES_MISG] → g.p.isReported = false
  /-- and it is always given for these. -/
  reported : g.t ∈ [.FORECAST_LOWEST_QNH, .OBSERVED_QFE, .OBSERVED_SLP] → g.p.isReported = true
  /-- The units in which it is given. -/
  unit : g.p.isReported = true → (g.t = .OBSERVED_QNH ∧ g.p.pressureUnit ∈ [.HECTOPASCAL, .INCHES_HG]) ∨
    (g.t, g.p.pressureUnit) ∈ [(.FORECAST_LOWEST_QNH, .INCHES_HG), (.OBSERVED_QFE, .MM_HG), (.OBSERVED_SLP, .HECTOPASCAL)]
  valid : g.isValid = true

/-- What the accessors of a runway state group in part `p` give. -/
structure RunwayStateOffers (p : ReportPart) (g : RunwayStateGroup) : Prop where
  part : p = .METAR
  /-- The aerodrome is closed: all runways. -/
  aerodrome : g.tp = .AERODROME_SNOCLO → g.rw = ⟨88, .NONE⟩
  /-- Deposits, extent and depth are given for these types only, -/
  deposits : g.dp ≠ .NOT_REPORTED ∨ g.ext ≠ .NOT_REPORTED → g.tp ∈ [.RUNWAY_STATE, .RUNWAY_NOT_OPERATIONAL]
  depth : g.dDepth.isReported = true → g.tp = .RUNWAY_STATE ∧ g.dDepth.precipUnit = .MM
  /-- and friction for all except the closed. -/
  friction : g.sf.isReported = true → g.tp ∉ [.RUNWAY_SNOCLO, .AERODROME_SNOCLO]
  /-- Friction is a coefficient, braking action or not reliable; then there is no coefficient. -/
  unreliable : g.sf.isUnreliable = true → g.sf.isReported = true ∧ g.sf.coefficient = none

/-- What the accessors of a sea surface group in part `p` give. -/
structure SeaSurfaceOffers (p : ReportPart) (g : SeaSurfaceGroup) : Prop where
  part : p = .METAR
  /-- The temperature is not below zero and in degrees. -/
  temperature : g.t.freezing = false ∧ g.t.precise = false ∧ ∀ v ∈ g.t.tempValue, 0 ≤ v ∧ v < 100
  /-- Waves are below one hundred metres; the state of the surface is a state of the code table. -/
  waves : ∀ v ∈ g.wh.whValue, v < 1000 ∧ (g.wh.whType = .STATE_OF_SURFACE → v ∈ [0, 1, 5, 12, 25, 40, 60, 90, 140, 141])

/-- What the accessors of a group with minimum and maximum temperature in part `p` give. -/
structure MinMaxOffers (p : ReportPart) (g : MinMaxTemperatureGroup) : Prop where
  forecast : g.t = .FORECAST ↔ p = .TAF
  remarks : g.t ≠ .FORECAST ↔ p = .RMK
  /-- The time is given just with forecast temperatures. It has a day. -/
  minTime : g.minTime.isSome = true ↔ g.t = .FORECAST ∧ g.minTemp.isReported = true
  maxTime : g.maxTime.isSome = true ↔ g.t = .FORECAST ∧ g.maxTemp.isReported = true
  day : ∀ t, g.minTime = some t ∨ g.maxTime = some t → t.dayValue.isSome = true
  /-- A forecast has at least one temperature, observations of a day both. -/
  some : g.t = .FORECAST → g.minTemp.isReported = true ∨ g.maxTemp.isReported = true
  both : g.t = .OBSERVED_24_HOURLY → g.minTemp.isReported = true ∧ g.maxTemp.isReported = true
  /-- Temperatures observed are in tenths of a degree, those forecast in degrees. -/
  tenths : (g.minTemp.isReported = true → (g.minTemp.precise = true ↔ g.t ≠ .FORECAST)) ∧
    (g.maxTemp.isReported = true → (g.maxTemp.precise = true ↔ g.t ≠ .FORECAST))

/-- What the accessors of a precipitation group in part `p` give. -/
structure PrecipitationOffers (p : ReportPart) (g : PrecipitationGroup) : Prop where
  part : (g.precType = .RAINFALL_9AM_10MIN ∧ p = .METAR) ∨ (g.precType ≠ .RAINFALL_9AM_10MIN ∧ p = .RMK)
  /-- Nothing is given for these types. -/
  missing : g.precType ∈ [.PNO, .FZRANO, .ICG_MISG, .PCPN_MISG] →
    g.precAmount.isReported = false ∧ g.precChange.isReported = false
  /-- A recent increase is given for these types only, -/
  recent : g.precChange.isReported = true → g.precType ∈ [.SNOW_INCREASING_RAPIDLY, .RAINFALL_9AM_10MIN]
  /-- for snow together with the total or not at all. -/
  snow : g.precType = .SNOW_INCREASING_RAPIDLY → g.precChange.isReported = g.precAmount.isReported
  /-- The unit of what is given depends on the type. -/
  unit : (g.precAmount.isReported = true → (g.precAmount.precipUnit = .MM ↔
      g.precType ∈ [.RAINFALL_9AM_10MIN, .PRECIPITATION_ACCUMULATION_SINCE_LAST_REPORT])) ∧
    (g.precChange.isReported = true → (g.precChange.precipUnit = .MM ↔ g.precType = .RAINFALL_9AM_10MIN))
  valid : g.isValid = true

/-- What the accessors of a layer forecast group in part `p` give. -/
structure LayerForecastOffers (p : ReportPart) (g : LayerForecastGroup) : Prop where
  part : p = .TAF
  /-- Both heights are given in feet, or neither. The top is not below the base. -/
  heights : (g.layerBaseHeight.isReported = false ∧ g.layerTopHeight.isReported = false) ∨
    ∃ a b, g.layerBaseHeight = ⟨.NONE, some a, .FEET⟩ ∧ g.layerTopHeight = ⟨.NONE, some b, .FEET⟩ ∧
      a ≤ b ∧ b ≤ a + 9000

/-- What the accessors of a pressure tendency group in part `p` give. -/
structure TendencyOffers (p : ReportPart) (g : PressureTendencyGroup) : Prop where
  part : p = .RMK
  /-- No difference is given with a rapid change. -/
  rapid : g.tendencyType ∈ [.RISING_RAPIDLY, .FALLING_RAPIDLY] → g.pressureDifference.isReported = false
  unit : g.pressureDifference.pressureUnit = .HECTOPASCAL

/-- What the accessors of a cloud types group in part `p` give. -/
structure CloudTypesOffers (p : ReportPart) (g : CloudTypesGroup) : Prop where
  part : p = .RMK
  /-- There are one to eight types. -/
  some : g.cloudTypes ≠ []
  few : g.cloudTypes.length ≤ 8
  /-- Heights are given for all types, in feet, or for none. -/
  heights : (∀ c ∈ g.cloudTypes, c.ht.isReported = false) ∨
    ∀ c ∈ g.cloudTypes, c.ht.isReported = true ∧ c.ht.distUnit = .FEET
  /-- The type of the clouds is always known. -/
  known : ∀ c ∈ g.cloudTypes, c.tp ≠ .NOT_REPORTED ∧ c.okt < 10

/-- A list of directions: it always ends, and no direction is listed twice. -/
def Listed (directions : Nat → Option (List Direction)) (v : List Direction) : Prop :=
  (∀ fuel, 8 ≤ fuel → directions fuel = some v) ∧ (v.map (·.cardinal)).Nodup

/-- What the accessors of a lightning group in part `p` give. -/
structure LightningOffers (p : ReportPart) (g : LightningGroup) : Prop where
  part : p = .RMK
  /-- The distance has no value, only that it is in the vicinity or distant. -/
  distance : g.dist.isValue = false ∧ (g.dist.isReported = true → g.dist.distModifier ∈ [.DISTANT, .VICINITY])
  directions : ∃ v, Listed g.directions v
  /-- Only complete groups are found. -/
  complete : g.incomplete = false

/-- What the accessors of a vicinity group in part `p` give. -/
structure VicinityOffers (p : ReportPart) (g : VicinityGroup) : Prop where
  part : p = .RMK
  /-- The distance is in metres or in words. -/
  distance : g.dist.isReported = true → (g.dist.isValue = true ∧ g.dist.distUnit = .METERS ∧ g.dist.distModifier = .NONE) ∨
    (g.dist.isValue = false ∧ g.dist.distModifier ∈ [.DISTANT, .VICINITY])
  /-- A direction of movement is given only if there are directions. -/
  directions : ∃ v, Listed g.directions v ∧ (g.movDir.isReported = true → v ≠ [])
  /-- Distance or direction are always given in a valid group. -/
  place : g.isValid = true → g.dist.isReported = true ∨ g.dir1from.isSome = true

/-- Types of miscellaneous groups which have no data. -/
def wordTypes : List MiscType := .FROIN :: colourCodes.map (·.2)

/-- What the accessors of a miscellaneous group in part `p` give. -/
structure MiscOffers (p : ReportPart) (g : MiscGroup) : Prop where
  /-- Where the types are found. -/
  remarks : g.groupType ∈ [.SUNSHINE_DURATION_MINUTES, .DENSITY_ALTITUDE, .HAILSTONE_SIZE, .FROIN] → p = .RMK
  correction : g.groupType = .CORRECTED_WEATHER_OBSERVATION → p = .METAR
  issuer : g.groupType ∈ [.ISSUER_ID_FS, .ISSUER_ID_FN] ↔ p = .TAF
  /-- Data are given for all types except these; density altitude may be missing. -/
  noData : g.groupType ∈ wordTypes → g.groupData = none
  data : g.groupType ∉ wordTypes → g.groupType ≠ .DENSITY_ALTITUDE → g.groupData.isSome = true
  /-- Data are never negative. -/
  sign : ∀ v ∈ g.groupData, 0 ≤ v
  hail : g.groupType = .HAILSTONE_SIZE → ∃ q : Nat, 1 ≤ q ∧ q < 40 ∧ g.groupData = some ((q : Rat) / 4)

/-! ### Measurements -/

theorem humidity_given (t d : Temperature) :
    (Temperature.relativeHumidity t d).isSome = true ↔ t.isReported = true ∧ d.isReported = true := by
  obtain ⟨tv, tf, tp⟩ := t
  obtain ⟨dv, df, dp⟩ := d
  cases tv <;> cases dv <;> simp [Temperature.relativeHumidity, Temperature.toUnit, Temperature.temperature,
    Temperature.isReported]
  generalize (if tp = true then _ else _ : Rat) = x
  generalize (if dp = true then _ else _ : Rat) = y
  split <;> rfl

theorem degrees_parts (d : Degrees) : d.temperature.precise = false := by
  cases d with
  | missing => rfl
  | value b n => cases b <;> rfl

theorem body_temperature (t : Degrees) (d : Option Degrees) :
    TemperatureOffers .METAR ⟨.TEMPERATURE_AND_DEW_POINT, t.temperature, dewPoint d, false⟩ := by
  have h : (dewPoint d).precise = false := by
    cases d with
    | none => rfl
    | some d => exact degrees_parts d
  constructor <;> simp [TemperatureGroup.relativeHumidity, humidity_given, h, degrees_parts]

theorem remark_temperature (t : Tenths) (d : Option Tenths) :
    TemperatureOffers .RMK ⟨.TEMPERATURE_AND_DEW_POINT, t.temperature, tenthsDewPoint d, false⟩ := by
  constructor <;> simp [TemperatureGroup.relativeHumidity, humidity_given]
  · refine ⟨fun _ => rfl, ?_⟩
    cases d with
    | none => intro h; cases h
    | some d => intro _; rfl
  · intro _; rfl

theorem missing_temperature {t : TemperatureGroupType} (b : Bool) : TemperatureOffers .RMK ⟨t, {}, {}, b⟩ := by
  constructor <;> simp [TemperatureGroup.relativeHumidity, humidity_given, Temperature.isReported]

theorem qnh_pressure {p : ReportPart} (hp : p = .METAR ∨ p = .RMK) {s : Str} {q : Pressure} (h : QnhWritten s q) :
    PressureOffers p ⟨.OBSERVED_QNH, q, false⟩ := by
  have ht : p ≠ .TAF := by rcases hp with rfl | rfl <;> simp
  rcases h with ⟨-, rfl⟩ | ⟨-, rfl⟩ | ⟨n, -, -, rfl⟩ | ⟨n, -, -, rfl⟩ <;>
    constructor <;> simp [hp, ht, PressureGroup.isValid]

theorem state_written {r : Runway} {s : Str} {g : RunwayStateGroup} (h : StateWritten r s g) :
    RunwayStateOffers .METAR g := by
  have friction : ∀ {f x}, FrictionWritten f x → x.isUnreliable = true → x.isReported = true ∧ x.coefficient = none := by
    rintro f x (⟨-, rfl⟩ | ⟨-, rfl⟩ | ⟨n, -, -, rfl⟩ | ⟨n, c, -, -, rfl⟩) <;>
      simp [SurfaceFriction.isUnreliable, SurfaceFriction.isReported, SurfaceFriction.coefficient]
  cases h with
  | snoclo => constructor <;> simp [SurfaceFriction.isReported, SurfaceFriction.isUnreliable, Precipitation.isReported]
  | cleared => constructor <;> simp [SurfaceFriction.isReported, SurfaceFriction.isUnreliable, Precipitation.isReported]
  | clearedFriction hf => constructor <;> simp [Precipitation.isReported]; exact friction hf
  | clrd hf => constructor <;> simp [Precipitation.isReported]; exact friction hf
  | state h1 h2 h3 hf =>
    rcases h3 with ⟨-, rfl, rfl⟩ | ⟨-, rfl, rfl⟩ | ⟨n, -, -, -, rfl, rfl⟩ <;>
      constructor <;> simp [Precipitation.isReported] <;> exact friction hf

theorem sea_written {a b : Str} {g : SeaSurfaceGroup} (h1 : SeaTemperatureWritten a g.t) (h2 : WavesWritten b g.wh) :
    SeaSurfaceOffers .METAR g := by
  obtain ⟨t, w⟩ := g
  simp only at h1 h2
  refine ⟨rfl, ?_, ?_⟩
  · rcases h1 with ⟨-, rfl⟩ | ⟨n, hn, -, rfl⟩ <;> simp
    omega
  · rcases h2 with ⟨-, rfl⟩ | ⟨-, rfl⟩ | ⟨k, n, h3, h4, h5, -, rfl⟩ | ⟨n, h, h3, -, rfl⟩
    · simp
    · simp
    · have : 10 ^ k ≤ 10 ^ 3 := Nat.pow_le_pow_right (by norm_num) h4
      simp; omega
    · simp at h3
      simp
      omega

theorem forecast_day (a : ForecastTemperature) : a.time.dayValue.isSome = true := rfl

theorem forecast_reported (a : ForecastTemperature) :
    a.temperature.isReported = true ∧ a.temperature.precise = false := ⟨rfl, rfl⟩

theorem unreported : (({} : Temperature).isReported = false) := rfl

theorem single_offers {a : ForecastTemperature} {g : MinMaxTemperatureGroup} (h : ForecastSingle a g) :
    MinMaxOffers .TAF g := by
  cases h <;> constructor <;> simp [forecast_reported, unreported] <;> exact forecast_day a

theorem pair_offers {a b : ForecastTemperature} {g : MinMaxTemperatureGroup} (h : ForecastPair a b g) :
    MinMaxOffers .TAF g := by
  cases h <;> constructor <;> simp [forecast_reported] <;>
    (rintro t (rfl | rfl) <;> exact forecast_day _)

theorem six_offers {ws : List Str} {x n : Temperature} (h : SixHourly ws x n) :
    MinMaxOffers .RMK { t := .OBSERVED_6_HOURLY, maxTemp := x, minTemp := n } := by
  cases h <;> constructor <;> simp [unreported, remarkTemperature]

theorem daily_offers (b b' : Bool) (n n' : Nat) :
    MinMaxOffers .RMK { t := .OBSERVED_24_HOURLY, maxTemp := remarkTemperature b n,
                        minTemp := remarkTemperature b' n' } := by
  constructor <;> simp [remark_reported]; simp [remarkTemperature]

theorem amount_offers {now : Option Nat} {code : Str} {k : Nat} {t : PrecipitationType} {u : PrecipitationUnit}
    {scale : Nat} {v : Str} {q : Precipitation} (h : (code, k, t, u, scale) ∈ amountTable now)
    (hv : AmountWritten k scale u v q) : PrecipitationOffers .RMK ⟨t, q, ⟨none, .MM⟩, false⟩ := by
  have hq : q.precipUnit = u := by rcases hv with ⟨-, rfl⟩ | ⟨n, -, -, rfl⟩ <;> rfl
  have hf : frozenType now = .FROZEN_PRECIP_3_OR_6_HOURLY ∨ frozenType now = .FROZEN_PRECIP_3_HOURLY ∨
      frozenType now = .FROZEN_PRECIP_6_HOURLY := by
    unfold frozenType
    repeat' split
    all_goals simp
  have ht : t ∉ [.PNO, .FZRANO, .ICG_MISG, .PCPN_MISG, .SNOW_INCREASING_RAPIDLY, .RAINFALL_9AM_10MIN] ∧
      (u = .MM ↔ t = .PRECIPITATION_ACCUMULATION_SINCE_LAST_REPORT) := by
    simp only [amountTable, List.mem_cons, Prod.mk.injEq, List.not_mem_nil, or_false] at h
    rcases h with h | h | h | h | h | h | h | h | h | h <;> obtain ⟨-, -, rfl, rfl, -⟩ := h
    case inr.inl => rcases hf with e | e | e <;> rw [e] <;> simp
    all_goals simp
  simp only [List.mem_cons, List.not_mem_nil, or_false, not_or] at ht
  obtain ⟨⟨h1, h2, h3, h4, h5, h6⟩, h7⟩ := ht
  constructor <;> simp [h1, h2, h3, h4, h5, h6, h7, hq, Precipitation.isReported, PrecipitationGroup.isValid]

theorem no_precipitation {t : PrecipitationType} (h : t ∈ [.PNO, .FZRANO, .ICG_MISG, .PCPN_MISG, .SNOW_INCREASING_RAPIDLY]) :
    PrecipitationOffers .RMK ⟨t, ⟨none, .MM⟩, ⟨none, .MM⟩, false⟩ := by
  have ht : t ≠ .RAINFALL_9AM_10MIN := by rintro rfl; simp at h
  constructor <;> simp [ht, Precipitation.isReported, PrecipitationGroup.isValid]

theorem snow_offers {s : Str} {q r : Precipitation} (h : SnincrWritten s q r) :
    PrecipitationOffers .RMK ⟨.SNOW_INCREASING_RAPIDLY, r, q, false⟩ := by
  obtain ⟨i, j, a, b, -, -, -, -, -, rfl, rfl⟩ := h
  constructor <;> simp [Precipitation.isReported, PrecipitationGroup.isValid]

theorem rain_offers {a b : Str} {q r : Precipitation} (h1 : RainWritten 2 a q) (h2 : RainWritten 3 b r) :
    PrecipitationOffers .METAR ⟨.RAINFALL_9AM_10MIN, r, q, false⟩ := by
  have hu : ∀ {k s x}, RainWritten k s x → x.precipUnit = .MM := by
    rintro k s x (⟨-, rfl⟩ | ⟨m, n, -, -, -, rfl⟩) <;> rfl
  constructor <;> simp [hu h1, hu h2, PrecipitationGroup.isValid]

theorem layer_height {s : Str} {base top : Distance} (h : LayerWritten s base top) :
    (base.isReported = false ∧ top.isReported = false) ∨
    ∃ a b, base = ⟨.NONE, some a, .FEET⟩ ∧ top = ⟨.NONE, some b, .FEET⟩ ∧ a ≤ b ∧ b ≤ a + 9000 := by
  rcases h with ⟨-, rfl, rfl⟩ | ⟨n, m, hn, hm, -, rfl, rfl⟩
  · exact Or.inl ⟨rfl, rfl⟩
  · exact Or.inr ⟨_, _, rfl, rfl, by omega, by omega⟩

theorem tendency_offers {c : Char} {r : Str} {t : PressureTendencyType} {q : Pressure} (h1 : TendencyWritten c t)
    (h2 : DifferenceWritten r q) : TendencyOffers .RMK ⟨t, q⟩ := by
  have ht : t ∉ [.RISING_RAPIDLY, .FALLING_RAPIDLY] := by
    rcases h1 with ⟨-, rfl⟩ | ⟨k, hk, -⟩
    · simp
    · have hm := List.mem_of_getElem? hk
      simp only [tendencyCode, List.mem_cons, List.not_mem_nil, or_false] at hm
      rcases hm with rfl | rfl | rfl | rfl | rfl | rfl | rfl | rfl | rfl <;> simp
  refine ⟨rfl, fun h => absurd h ht, ?_⟩
  rcases h2 with ⟨-, rfl⟩ | ⟨n, -, -, rfl⟩ <;> rfl

/-! ### Groups of remarks -/

theorem cloudName_known {s : Str} {k : CloudTypeKind} (h : (s, k) ∈ cloudNames ++ obscurationNames) :
    k ≠ .NOT_REPORTED := by
  rintro rfl
  simp [cloudNames, obscurationNames] at h

theorem layers_offers {ws : List Str} {cs : List CloudType} (h1 : ws ≠ []) (h2 : ws.length ≤ 8)
    (h : List.Forall₂ TypeLayerText ws cs) : CloudTypesOffers .RMK ⟨cs⟩ := by
  have key : ∀ c ∈ cs, ∃ s, TypeLayerText s c := by
    clear h1 h2
    induction h with
    | nil => simp
    | cons h _ ih =>
      intro c hc
      rcases List.mem_cons.mp hc with rfl | hc
      · exact ⟨_, h⟩
      · exact ih c hc
  refine ⟨rfl, ?_, ?_, Or.inr ?_, ?_⟩
  · rintro rfl
    cases h
    exact h1 rfl
  · rw [CloudTypesGroup.cloudTypes, ← h.length_eq]; exact h2
  · intro c hc
    obtain ⟨s, t, k, n, h, -, -, -, -, rfl⟩ := key c hc
    exact ⟨rfl, rfl⟩
  · intro c hc
    obtain ⟨s, t, k, n, h, ht, hn, -, -, rfl⟩ := key c hc
    exact ⟨cloudName_known (List.mem_append_left _ ht), hn⟩

theorem oktas_offers {l : List Str} {cs : List CloudType} (h1 : l ≠ [])
    (h : List.Forall₂ OktaText (l.take 8) cs) : CloudTypesOffers .RMK ⟨cs⟩ := by
  have key : ∀ c ∈ cs, ∃ s, OktaText s c := by
    clear h1
    generalize l.take 8 = m at h
    induction h with
    | nil => simp
    | cons h _ ih =>
      intro c hc
      rcases List.mem_cons.mp hc with rfl | hc
      · exact ⟨_, h⟩
      · exact ih c hc
  refine ⟨rfl, ?_, ?_, Or.inl ?_, ?_⟩
  · rintro rfl
    have := h.length_eq
    simp at this
    exact h1 this
  · rw [CloudTypesGroup.cloudTypes, ← h.length_eq]; simp
  · intro c hc
    obtain ⟨s, t, k, n, -, -, -, rfl⟩ := key c hc
    rfl
  · intro c hc
    obtain ⟨s, t, k, n, ht, hn, -, rfl⟩ := key c hc
    exact ⟨cloudName_known ht, hn⟩

theorem lightning_offers {ws : List Str} {g : LightningGroup} {c1 c2 : List Cardinal} (h : LightningText ws g c1 c2)
    (hl : ws ∉ halfPhrases) : LightningOffers .RMK g := by
  obtain ⟨v, h1, h2, -⟩ := C60_directions ws g c1 c2 h
  rcases h with ⟨w, f, hf, rfl, rfl, -⟩ | ⟨fw, f, ty, ds, hd, f1, t1, f2, t2, hf, hds, hhd, rfl, rfl⟩
  · exfalso
    apply hl
    simp [frequencyWords] at hf
    rcases hf with ⟨rfl, -⟩ | ⟨rfl, -⟩ | ⟨rfl, -⟩ <;> simp [halfPhrases]
  · refine ⟨rfl, ?_, ⟨v, h1, h2⟩, rfl⟩
    simp only [lastDistance]
    split
    · simp [Distance.isValue, Distance.isReported]
    · split <;> simp [Distance.isValue]

theorem distance_words {ds : List Str} {d : Distance} (h : DistanceWords ds d) (hr : d.isReported = true) :
    (d.isValue = true ∧ d.distUnit = .METERS ∧ d.distModifier = .NONE) ∨
    (d.isValue = false ∧ d.distModifier ∈ [.DISTANT, .VICINITY]) := by
  rcases h with ⟨-, rfl⟩ | ⟨w, ⟨-, rfl⟩ | ⟨-, rfl⟩ | ⟨k, n, -, -, -, rfl⟩, -⟩
  · cases hr
  · exact Or.inr ⟨rfl, by simp⟩
  · exact Or.inr ⟨rfl, by simp⟩
  · exact Or.inl ⟨rfl, rfl, rfl⟩

theorem heading_cardinals {s : Str} {f t : Option Direction} {c : List Cardinal} (h : HeadingText s f t c) : c ≠ [] := by
  cases h <;> simp [sweep]

theorem vicinity_offers {ws : List Str} {g : VicinityGroup} {c1 c2 : List Cardinal} (h : VicinityText ws g c1 c2)
    {i : VicinityIncomplete} (hi : i = .NONE → ws ∉ halfPhrases ∧ ∀ w t, (w, t) ∈ vicinityWords → ws ≠ [w]) :
    VicinityOffers .RMK { g with incompleteType := i } := by
  obtain ⟨v, h1, h2, h3, -⟩ := C61_directions ws g c1 c2 h
  have place : ∀ {kw t}, KindWords kw t →
      ¬ (kw ∉ halfPhrases ∧ ∀ w t, (w, t) ∈ vicinityWords → kw ≠ [w]) := by
    rintro kw t (⟨w, hw, rfl⟩ | ⟨rfl, -⟩) ⟨ha, hb⟩
    · exact hb w t hw rfl
    · exact ha (by simp [halfPhrases])
  have dist : ∀ {w d}, DistanceWord w d → d.isReported = true := by
    rintro w d (⟨-, rfl⟩ | ⟨-, rfl⟩ | ⟨k, n, -, -, -, rfl⟩) <;> rfl
  have some : ∀ {s f t}, HeadingText s f t c1 → v ≠ [] := by
    rintro s f t h rfl
    exact heading_cardinals h (List.prefix_nil.mp h3)
  refine ⟨rfl, ?_, ⟨v, ⟨h1, h2⟩, ?_⟩, ?_⟩
  · cases h with
    | rotor | kind => simp [Distance.isReported, Distance.isValue]
    | distance h1 h2 => exact distance_words (Or.inr ⟨_, h2, rfl⟩)
    | heading h1 h2 | headingAnd h1 h2 | headings h1 h2 | moving h1 h2 | moved h1 h2 => exact distance_words h2
  · cases h with
    | moved h1 h2 h3 => exact fun _ => some h3
    | _ => intro h; cases h
  · intro hv
    have hi := hi (by simpa [VicinityGroup.isValid] using hv)
    cases h with
    | rotor => exact absurd (by simp [halfPhrases]) hi.1
    | kind h => exact absurd hi (place h)
    | distance _ h => exact Or.inl (dist h)
    | heading _ _ h | headingAnd _ _ h | headings _ _ h | moving _ _ h | moved _ _ h =>
      obtain ⟨d, rfl⟩ := heading_from h
      exact Or.inr rfl

theorem colour_type {w : Str} {t : MiscType} (h : (w, t) ∈ colourCodes) : t ∈ colourCodes.map (·.2) :=
  List.mem_map.mpr ⟨_, h, rfl⟩

theorem colour_facts : ∀ t ∈ colourCodes.map (·.2),
    t ∉ [.SUNSHINE_DURATION_MINUTES, .DENSITY_ALTITUDE, .HAILSTONE_SIZE, .FROIN, .CORRECTED_WEATHER_OBSERVATION,
      .ISSUER_ID_FS, .ISSUER_ID_FN] := by
  decide

theorem misc_offers {p : ReportPart} {ws : List Str} {g : MiscGroup} (h : MiscText p ws g)
    (hl : p = .RMK → ws ∉ halfPhrases ∧ ∀ n, 1 ≤ n → n ≤ 9 → ws ≠ [c!"GR", decimal 1 n]) : MiscOffers p g := by
  cases h with
  | colour hp hw =>
    have h1 := colour_facts _ (colour_type hw)
    have h2 : p ≠ .TAF := by rcases hp with rfl | rfl <;> simp
    have h3 : _ ∈ wordTypes := List.mem_cons_of_mem _ (colour_type hw)
    simp only [List.mem_cons, List.not_mem_nil, or_false, not_or] at h1
    obtain ⟨e1, e2, e3, e4, e5, e6, e7⟩ := h1
    constructor <;> simp [e1, e2, e3, e4, e5, e6, e7, h2, h3]
  | correction | issuerN | issuerS | sunshine | frostOnInstrument | densityMissing =>
    constructor <;> simp [wordTypes, colourCodes]
    try positivity
  | density | densityAlt | hail => exact absurd (by simp [halfPhrases]) (hl rfl).1
  | densityValue =>
    constructor <;> simp [wordTypes, colourCodes]
    exact f32_nonneg (by positivity)
  | hailInches h1 h2 => exact absurd rfl ((hl rfl).2 _ h1 h2)
  | @hailQuarters w q hq =>
    have hq' : 1 ≤ q ∧ q < 4 := by
      simp only [quarterTexts, List.mem_cons, Prod.mk.injEq, List.not_mem_nil, or_false] at hq
      omega
    constructor <;> simp [wordTypes, colourCodes]
    · positivity
    · exact ⟨hq'.1, by omega⟩
  | @hailBoth n w q h1 h2 hq =>
    have hq' : 1 ≤ q ∧ q < 4 := by
      simp only [quarterTexts, List.mem_cons, Prod.mk.injEq, List.not_mem_nil, or_false] at hq
      omega
    constructor <;> simp [wordTypes, colourCodes]
    · positivity
    · exact ⟨4 * n + q, by omega, by omega, by push_cast; ring⟩

/-! ### Theorems -/

/-- What the accessors of these groups give. -/
def Holds (p : ReportPart) : Group → Prop
  | .temperature g => TemperatureOffers p g
  | .pressure g => PressureOffers p g
  | .runwayState g => RunwayStateOffers p g
  | .seaSurface g => SeaSurfaceOffers p g
  | .minMaxTemperature g => MinMaxOffers p g
  | .precipitation g => PrecipitationOffers p g
  | .layerForecast g => LayerForecastOffers p g
  | .pressureTendency g => TendencyOffers p g
  | .cloudTypes g => CloudTypesOffers p g
  | .lowMidHighCloud _ => p = .RMK
  | .lightning g => LightningOffers p g
  | .vicinity g => VicinityOffers p g
  | .misc g => MiscOffers p g
  | _ => True

theorem fixed_holds {s : Str} {g : Group} (h : (s, g) ∈ fixedWords) : Holds .RMK (settled g) := by
  simp only [fixedWords, List.mem_cons, Prod.mk.injEq, List.not_mem_nil, or_false] at h
  rcases h with h | h | h | h | h | h | h <;> obtain ⟨-, rfl⟩ := h
  · trivial
  · trivial
  · constructor <;> simp [PressureGroup.isValid, Pressure.isReported]
  · exact no_precipitation (by simp)
  · exact no_precipitation (by simp)
  · constructor <;> simp [Pressure.isReported]
  · constructor <;> simp [Pressure.isReported]

theorem missing_holds {s : Str} {g g' : Group} (h : (s, g, g') ∈ missingWords) :
    [s] ∈ halfPhrases ∧ Holds .RMK (settled g') := by
  simp only [missingWords, List.mem_cons, Prod.mk.injEq, List.not_mem_nil, or_false] at h
  rcases h with h | h | h | h | h | h <;> obtain ⟨rfl, -, rfl⟩ := h <;> refine ⟨by simp [halfPhrases], ?_⟩
  · trivial
  · exact missing_temperature false
  · exact missing_temperature false
  · constructor <;> simp [PressureGroup.isValid, Pressure.isReported]
  · exact no_precipitation (by simp)
  · exact no_precipitation (by simp)

theorem body_holds {p : ReportPart} {ws : List Str} {g : Group} (hp : p = .METAR ∨ p = .TAF) (h : Written p ws g) :
    Holds p g := by
  cases h with
  | temperature hm => subst hm; exact body_temperature _ _
  | pressure hm h => exact qnh_pressure (Or.inl hm) h
  | forecastPressure hm => subst hm; constructor <;> simp [PressureGroup.isValid, Pressure.isReported]
  | snowClosed hm => 
    subst hm
    constructor <;> simp [SurfaceFriction.isReported, SurfaceFriction.isUnreliable, Precipitation.isReported]
  | runwayState hm _ h => subst hm; exact state_written h
  | seaSurface hm h1 h2 => subst hm; exact sea_written h1 h2
  | forecastTemperature hm _ h => subst hm; exact single_offers h
  | forecastTemperatures hm _ _ h => subst hm; exact pair_offers h
  | rainfall hm h1 h2 => subst hm; exact rain_offers h1 h2
  | layer hm _ h => exact ⟨hm, layer_height h⟩
  | misc h =>
    exact misc_offers h fun hr => absurd hr (body_not_rmk hp)
  | _ => trivial

theorem remark_holds {now : Option Nat} {ws : List Str} {g : Group} {next : Str} (h : Remark now ws g)
    (hl : ¬ Lacking next ws) : Holds .RMK (settled g) := by
  have hh : ws ∉ halfPhrases := fun hm => hl (.phrase hm)
  cases h with
  | fixed h => exact fixed_holds h
  | missing h => exact absurd (missing_holds h).1 hh
  | missingSaid h => exact (missing_holds h).2
  | temperature => exact remark_temperature _ _
  | pressure h => exact qnh_pressure (Or.inr rfl) h
  | seaLevelPressure => constructor <;> simp [PressureGroup.isValid, Pressure.isReported]
  | stationPressure => constructor <;> simp [PressureGroup.isValid, Pressure.isReported]
  | sixHourly h => exact six_offers h
  | daily => exact daily_offers _ _ _ _
  | precipitation h1 h2 => exact amount_offers h1 h2
  | snowIncreasing => exact no_precipitation (by simp)
  | snowIncrease h => exact snow_offers h
  | tendency h1 h2 => exact tendency_offers h1 h2
  | cloudTypes h1 h2 h3 => exact layers_offers h1 h2 h3
  | cloudOktas h1 _ h3 => exact oktas_offers h1 h3
  | cloudCodes => exact rfl
  | lightning h => exact lightning_offers h hh
  | vicinity h =>
    exact vicinity_offers h fun _ => ⟨hh, by rintro w t hw rfl; exact hl (.phenomenon hw)⟩
  | misc h => exact misc_offers h fun _ => ⟨hh, by rintro n h1 h2 rfl; exact hl (.hail h1 h2)⟩
  | _ => trivial

theorem all_hold {report : Str} {limit : Nat} {r : ParseResult} (h : Result report limit r) :
    ∀ x ∈ r.groups, Holds x.reportPart x.group := by
  refine every_group (fun _ _ => trivial) ?_ (fun _ => trivial) (fun _ _ _ hp hw _ => body_holds hp hw)
    (fun _ _ _ _ => remark_holds) ?_ h
  · intro s g hw
    cases hw <;> trivial
  · intro now w y _ hr
    have hv := lone_vicinity hr
    cases hr with
    | vicinity ht =>
      exact vicinity_offers ht (i := y.incompleteType) fun hi => by simp [VicinityGroup.isValid, hi] at hv
    | fixed h => simp [fixedWords] at h
    | missing h => simp [missingWords] at h

/-- C81. For every temperature group of every result, the type tells which accessors give what. -/
theorem C81_temperature (report : Str) (limit : Nat) (r : ParseResult) (h : Result report limit r) :
    ∀ x ∈ r.groups, ∀ g, x.group = .temperature g → TemperatureOffers x.reportPart g := by
  intro x hx g hg
  have := all_hold h x hx
  rw [hg] at this
  exact this

/-- C81. For every pressure group of every result, the type tells which accessors give what. -/
theorem C81_pressure (report : Str) (limit : Nat) (r : ParseResult) (h : Result report limit r) :
    ∀ x ∈ r.groups, ∀ g, x.group = .pressure g → PressureOffers x.reportPart g := by
  intro x hx g hg
  have := all_hold h x hx
  rw [hg] at this
  exact this

/-- C81. For every sea surface group of every result, the type tells which accessors give what. -/
theorem C81_seaSurface (report : Str) (limit : Nat) (r : ParseResult) (h : Result report limit r) :
    ∀ x ∈ r.groups, ∀ g, x.group = .seaSurface g → SeaSurfaceOffers x.reportPart g := by
  intro x hx g hg
  have := all_hold h x hx
  rw [hg] at this
  exact this

/-- C81. For every minimum/maximum temperature group of every result, the type tells which accessors give what. -/
theorem C81_minMax (report : Str) (limit : Nat) (r : ParseResult) (h : Result report limit r) :
    ∀ x ∈ r.groups, ∀ g, x.group = .minMaxTemperature g → MinMaxOffers x.reportPart g := by
  intro x hx g hg
  have := all_hold h x hx
  rw [hg] at this
  exact this

/-- C82. For every precipitation group of every result, the type tells which accessors give what. -/
theorem C82_precipitation (report : Str) (limit : Nat) (r : ParseResult) (h : Result report limit r) :
    ∀ x ∈ r.groups, ∀ g, x.group = .precipitation g → PrecipitationOffers x.reportPart g := by
  intro x hx g hg
  have := all_hold h x hx
  rw [hg] at this
  exact this

/-- C82. For every runway state group of every result, the type tells which accessors give what. -/
theorem C82_runwayState (report : Str) (limit : Nat) (r : ParseResult) (h : Result report limit r) :
    ∀ x ∈ r.groups, ∀ g, x.group = .runwayState g → RunwayStateOffers x.reportPart g := by
  intro x hx g hg
  have := all_hold h x hx
  rw [hg] at this
  exact this

/-- C82. For every layer forecast group of every result, the type tells which accessors give what. -/
theorem C82_layerForecast (report : Str) (limit : Nat) (r : ParseResult) (h : Result report limit r) :
    ∀ x ∈ r.groups, ∀ g, x.group = .layerForecast g → LayerForecastOffers x.reportPart g := by
  intro x hx g hg
  have := all_hold h x hx
  rw [hg] at this
  exact this

/-- C82. For every pressure tendency group of every result, the type tells which accessors give what. -/
theorem C82_tendency (report : Str) (limit : Nat) (r : ParseResult) (h : Result report limit r) :
    ∀ x ∈ r.groups, ∀ g, x.group = .pressureTendency g → TendencyOffers x.reportPart g := by
  intro x hx g hg
  have := all_hold h x hx
  rw [hg] at this
  exact this

/-- C83. For every cloud types group of every result, the type tells which accessors give what. -/
theorem C83_cloudTypes (report : Str) (limit : Nat) (r : ParseResult) (h : Result report limit r) :
    ∀ x ∈ r.groups, ∀ g, x.group = .cloudTypes g → CloudTypesOffers x.reportPart g := by
  intro x hx g hg
  have := all_hold h x hx
  rw [hg] at this
  exact this

/-- C83. For every lightning group of every result, the type tells which accessors give what. -/
theorem C83_lightning (report : Str) (limit : Nat) (r : ParseResult) (h : Result report limit r) :
    ∀ x ∈ r.groups, ∀ g, x.group = .lightning g → LightningOffers x.reportPart g := by
  intro x hx g hg
  have := all_hold h x hx
  rw [hg] at this
  exact this

/-- C83. For every vicinity group of every result, the type tells which accessors give what. -/
theorem C83_vicinity (report : Str) (limit : Nat) (r : ParseResult) (h : Result report limit r) :
    ∀ x ∈ r.groups, ∀ g, x.group = .vicinity g → VicinityOffers x.reportPart g := by
  intro x hx g hg
  have := all_hold h x hx
  rw [hg] at this
  exact this

/-- C83. For every miscellaneous group of every result, the type tells which accessors give what. -/
theorem C83_misc (report : Str) (limit : Nat) (r : ParseResult) (h : Result report limit r) :
    ∀ x ∈ r.groups, ∀ g, x.group = .misc g → MiscOffers x.reportPart g := by
  intro x hx g hg
  have := all_hold h x hx
  rw [hg] at this
  exact this

/-- C83. Groups of low, middle and high cloud codes are found only in remarks. -/
theorem C83_cloudCodes (report : Str) (limit : Nat) (r : ParseResult) (h : Result report limit r) :
    ∀ x ∈ r.groups, ∀ g, x.group = .lowMidHighCloud g → x.reportPart = .RMK := by
  intro x hx g hg
  have := all_hold h x hx
  rw [hg] at this
  exact this

end Metaf.Props

/-! ### Cases -/

namespace Metaf.Props

open Metaf Metaf.Spec

section
attribute [local instance] ieee

set_option maxRecDepth 4000 in
/-- Temperatures, pressures and waves: the type and what the accessors give. -/
example : ∃ r, Result c!"METAR ULLI 112330Z 05/M02 Q1021 W05/S4 RMK T00471021 SLP137 10066" 100 r ∧
    (r.groups.filterMap fun x => match x.group with
      | .temperature g => some (x.reportPart, g.t.isReported, g.t.precise, g.dp.precise, g.relativeHumidity.isSome)
      | _ => none) =
      [(.METAR, true, false, false, true), (.RMK, true, true, true, true)] ∧
    (r.groups.filterMap fun x => match x.group with
      | .pressure g => some (x.reportPart, g.t, g.p.pressureUnit)
      | _ => none) =
      [(.METAR, .OBSERVED_QNH, .HECTOPASCAL), (.RMK, .OBSERVED_SLP, .HECTOPASCAL)] ∧
    (r.groups.filterMap fun x => match x.group with
      | .seaSurface g => some (g.t.tempValue, g.wh.whType, g.wh.whValue)
      | _ => none) =
      [(some 5, .STATE_OF_SURFACE, some 25)] ∧
    (r.groups.filterMap fun x => match x.group with
      | .minMaxTemperature g => some (g.t, g.minTemp.isReported, g.maxTemp.isReported, g.maxTime)
      | _ => none) =
      [(.OBSERVED_6_HOURLY, false, true, none)] ∧
    (∀ x ∈ r.groups, ∀ g, x.group = .temperature g → TemperatureOffers x.reportPart g) ∧
    (∀ x ∈ r.groups, ∀ g, x.group = .pressure g → PressureOffers x.reportPart g) ∧
    (∀ x ∈ r.groups, ∀ g, x.group = .seaSurface g → SeaSurfaceOffers x.reportPart g) ∧
    (∀ x ∈ r.groups, ∀ g, x.group = .minMaxTemperature g → MinMaxOffers x.reportPart g) := by
  obtain ⟨r, hr, -⟩ := C01_parse_total
    c!"METAR ULLI 112330Z 05/M02 Q1021 W05/S4 RMK T00471021 SLP137 10066" 100
  have h : ((Parser.parse
      c!"METAR ULLI 112330Z 05/M02 Q1021 W05/S4 RMK T00471021 SLP137 10066" 100).toOption.map fun r => (
     r.groups.filterMap fun x => match x.group with
      | .temperature g => some (x.reportPart, g.t.isReported, g.t.precise, g.dp.precise, g.relativeHumidity.isSome)
      | _ => none,
     r.groups.filterMap fun x => match x.group with
      | .pressure g => some (x.reportPart, g.t, g.p.pressureUnit)
      | _ => none,
     r.groups.filterMap fun x => match x.group with
      | .seaSurface g => some (g.t.tempValue, g.wh.whType, g.wh.whValue)
      | _ => none,
     r.groups.filterMap fun x => match x.group with
      | .minMaxTemperature g => some (g.t, g.minTemp.isReported, g.maxTemp.isReported, g.maxTime)
      | _ => none)) = some (
      [(.METAR, true, false, false, true), (.RMK, true, true, true, true)],
      [(.METAR, .OBSERVED_QNH, .HECTOPASCAL), (.RMK, .OBSERVED_SLP, .HECTOPASCAL)],
      [(some 5, .STATE_OF_SURFACE, some 25)],
      [(.OBSERVED_6_HOURLY, false, true, none)]) := by
    kernel_rfl
  rw [hr] at h
  simp only [Except.toOption, Option.map_some, Option.some.injEq, Prod.mk.injEq] at h
  exact ⟨r, hr, h.1, h.2.1, h.2.2.1, h.2.2.2, C81_temperature _ _ _ hr, C81_pressure _ _ _ hr, C81_seaSurface _ _ _ hr, C81_minMax _ _ _ hr⟩

set_option maxRecDepth 4000 in
/-- Rainfall, runway state and pressure tendency: the type and what the accessors give. -/
example : ∃ r, Result c!"METAR ULLI 112330Z RF00.2/001.4 R14/290250 RMK 52032 P0012 SNINCR 4/12 PRESRR" 100 r ∧
    (r.groups.filterMap fun x => match x.group with
      | .precipitation g => some (x.reportPart, g.precType, g.precAmount.precipUnit, g.precChange.isReported)
      | _ => none) =
      [(.METAR, .RAINFALL_9AM_10MIN, .MM, true), (.RMK, .TOTAL_PRECIPITATION_HOURLY, .INCHES, false),
       (.RMK, .SNOW_INCREASING_RAPIDLY, .INCHES, true)] ∧
    (r.groups.filterMap fun x => match x.group with
      | .runwayState g => some (g.tp, g.dDepth.isReported, g.sf.isReported)
      | _ => none) =
      [(.RUNWAY_STATE, true, true)] ∧
    (r.groups.filterMap fun x => match x.group with
      | .pressureTendency g => some (g.tendencyType, g.pressureDifference.isReported)
      | _ => none) =
      [(.INCREASING, true), (.RISING_RAPIDLY, false)] ∧
    (∀ x ∈ r.groups, ∀ g, x.group = .precipitation g → PrecipitationOffers x.reportPart g) ∧
    (∀ x ∈ r.groups, ∀ g, x.group = .runwayState g → RunwayStateOffers x.reportPart g) ∧
    (∀ x ∈ r.groups, ∀ g, x.group = .pressureTendency g → TendencyOffers x.reportPart g) := by
  obtain ⟨r, hr, -⟩ := C01_parse_total
    c!"METAR ULLI 112330Z RF00.2/001.4 R14/290250 RMK 52032 P0012 SNINCR 4/12 PRESRR" 100
  have h : ((Parser.parse
      c!"METAR ULLI 112330Z RF00.2/001.4 R14/290250 RMK 52032 P0012 SNINCR 4/12 PRESRR" 100).toOption.map fun r => (
     r.groups.filterMap fun x => match x.group with
      | .precipitation g => some (x.reportPart, g.precType, g.precAmount.precipUnit, g.precChange.isReported)
      | _ => none,
     r.groups.filterMap fun x => match x.group with
      | .runwayState g => some (g.tp, g.dDepth.isReported, g.sf.isReported)
      | _ => none,
     r.groups.filterMap fun x => match x.group with
      | .pressureTendency g => some (g.tendencyType, g.pressureDifference.isReported)
      | _ => none)) = some (
      [(.METAR, .RAINFALL_9AM_10MIN, .MM, true), (.RMK, .TOTAL_PRECIPITATION_HOURLY, .INCHES, false),
       (.RMK, .SNOW_INCREASING_RAPIDLY, .INCHES, true)],
      [(.RUNWAY_STATE, true, true)],
      [(.INCREASING, true), (.RISING_RAPIDLY, false)]) := by
    kernel_rfl
  rw [hr] at h
  simp only [Except.toOption, Option.map_some, Option.some.injEq, Prod.mk.injEq] at h
  exact ⟨r, hr, h.1, h.2.1, h.2.2, C82_precipitation _ _ _ hr, C82_runwayState _ _ _ hr, C82_tendency _ _ _ hr⟩

set_option maxRecDepth 4000 in
/-- Forecasts of icing and turbulence: both heights are given. -/
example : ∃ r, Result c!"TAF ULLI 112330Z 1200/1224 620304 540009" 100 r ∧
    (r.groups.filterMap fun x => match x.group with
      | .layerForecast g => some (g.layerType, g.layerBaseHeight, g.layerTopHeight)
      | _ => none) =
      [(.ICING_LIGHT_RIME_IN_CLOUD, ⟨.NONE, some 3000, .FEET⟩, ⟨.NONE, some 7000, .FEET⟩),
       (.TURBULENCE_MODERATE_IN_CLOUD_OCCASIONAL, ⟨.NONE, some 0, .FEET⟩, ⟨.NONE, some 9000, .FEET⟩)] ∧
    (∀ x ∈ r.groups, ∀ g, x.group = .layerForecast g → LayerForecastOffers x.reportPart g) := by
  obtain ⟨r, hr, -⟩ := C01_parse_total
    c!"TAF ULLI 112330Z 1200/1224 620304 540009" 100
  have h : ((Parser.parse
      c!"TAF ULLI 112330Z 1200/1224 620304 540009" 100).toOption.map fun r => (
     r.groups.filterMap fun x => match x.group with
      | .layerForecast g => some (g.layerType, g.layerBaseHeight, g.layerTopHeight)
      | _ => none)) = some (
      [(.ICING_LIGHT_RIME_IN_CLOUD, ⟨.NONE, some 3000, .FEET⟩, ⟨.NONE, some 7000, .FEET⟩),
       (.TURBULENCE_MODERATE_IN_CLOUD_OCCASIONAL, ⟨.NONE, some 0, .FEET⟩, ⟨.NONE, some 9000, .FEET⟩)]) := by
    kernel_rfl
  rw [hr] at h
  simp only [Except.toOption, Option.map_some, Option.some.injEq] at h
  exact ⟨r, hr, h, C82_layerForecast _ _ _ hr⟩

set_option maxRecDepth 4000 in
/-- Clouds, lightning, a thunderstorm and data in remarks: the type and what the accessors give. -/
example : ∃ r, Result c!"METAR ULLI 112330Z BLU RMK SC2AC3 FRQ LTGCG DSNT N-E CB DSNT SW MOV NE GR 1 3/4 DENSITY ALT MISG 8/5//" 100 r ∧
    (r.groups.filterMap fun x => match x.group with
      | .cloudTypes g => some (g.cloudTypes.map fun c => (c.tp, c.okt, c.ht.isReported))
      | _ => none) =
      [[(.STRATOCUMULUS, 2, false), (.ALTOCUMULUS, 3, false)]] ∧
    (r.groups.filterMap fun x => match x.group with
      | .lightning g => some (g.freq, g.dist.distModifier, g.directions 8 |>.map (·.map (·.cardinal)))
      | _ => none) =
      [(.FREQUENT, .DISTANT, some [.N, .NE, .E])] ∧
    (r.groups.filterMap fun x => match x.group with
      | .vicinity g => some (g.t, g.dist.distModifier, g.dir1from.isSome, g.movDir.isReported)
      | _ => none) =
      [(.CUMULONIMBUS, .DISTANT, true, true)] ∧
    (r.groups.filterMap fun x => match x.group with
      | .misc g => some (x.reportPart, g.groupType, g.groupData)
      | _ => none) =
      [(.METAR, .COLOUR_CODE_BLUE, none), (.RMK, .HAILSTONE_SIZE, some (7 / 4)), (.RMK, .DENSITY_ALTITUDE, none)] ∧
    (∀ x ∈ r.groups, ∀ g, x.group = .cloudTypes g → CloudTypesOffers x.reportPart g) ∧
    (∀ x ∈ r.groups, ∀ g, x.group = .lightning g → LightningOffers x.reportPart g) ∧
    (∀ x ∈ r.groups, ∀ g, x.group = .vicinity g → VicinityOffers x.reportPart g) ∧
    (∀ x ∈ r.groups, ∀ g, x.group = .misc g → MiscOffers x.reportPart g) := by
  obtain ⟨r, hr, -⟩ := C01_parse_total
    c!"METAR ULLI 112330Z BLU RMK SC2AC3 FRQ LTGCG DSNT N-E CB DSNT SW MOV NE GR 1 3/4 DENSITY ALT MISG 8/5//" 100
  have h : ((Parser.parse
      c!"METAR ULLI 112330Z BLU RMK SC2AC3 FRQ LTGCG DSNT N-E CB DSNT SW MOV NE GR 1 3/4 DENSITY ALT MISG 8/5//" 100).toOption.map fun r => (
     r.groups.filterMap fun x => match x.group with
      | .cloudTypes g => some (g.cloudTypes.map fun c => (c.tp, c.okt, c.ht.isReported))
      | _ => none,
     r.groups.filterMap fun x => match x.group with
      | .lightning g => some (g.freq, g.dist.distModifier, g.directions 8 |>.map (·.map (·.cardinal)))
      | _ => none,
     r.groups.filterMap fun x => match x.group with
      | .vicinity g => some (g.t, g.dist.distModifier, g.dir1from.isSome, g.movDir.isReported)
      | _ => none,
     r.groups.filterMap fun x => match x.group with
      | .misc g => some (x.reportPart, g.groupType, g.groupData)
      | _ => none)) = some (
      [[(.STRATOCUMULUS, 2, false), (.ALTOCUMULUS, 3, false)]],
      [(.FREQUENT, .DISTANT, some [.N, .NE, .E])],
      [(.CUMULONIMBUS, .DISTANT, true, true)],
      [(.METAR, .COLOUR_CODE_BLUE, none), (.RMK, .HAILSTONE_SIZE, some (7 / 4)), (.RMK, .DENSITY_ALTITUDE, none)]) := by
    kernel_rfl
  rw [hr] at h
  simp only [Except.toOption, Option.map_some, Option.some.injEq, Prod.mk.injEq] at h
  exact ⟨r, hr, h.1, h.2.1, h.2.2.1, h.2.2.2, C83_cloudTypes _ _ _ hr, C83_lightning _ _ _ hr, C83_vicinity _ _ _ hr, C83_misc _ _ _ hr⟩

end

end Metaf.Props
