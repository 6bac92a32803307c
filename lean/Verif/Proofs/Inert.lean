import Verif.Proofs.NoFault

/-!
Texts which no group of the result absorbs: the keywords and the empty text.
-/

set_option linter.unusedSectionVars false

namespace Metaf

variable [FloatSem]

/-- The empty text and the texts of all keywords. -/
def inertTexts : List Str :=
  [[], c!"METAR", c!"SPECI", c!"TAF", c!"AMD", c!"NIL", c!"CNL", c!"COR", c!"AUTO", c!"CAVOK",
   c!"RMK", c!"$", c!"AO1", c!"AO2", c!"AO1A", c!"AO2A", c!"NOSPECI"]

/-- Case distinction on an inert text. -/
local macro "inert_cases" h:ident : tactic =>
  `(tactic|
    (simp only [inertTexts, List.mem_cons, List.not_mem_nil, or_false] at $h:ident
     rcases $h:ident with
       $h:ident | $h:ident | $h:ident | $h:ident | $h:ident | $h:ident | $h:ident | $h:ident | $h:ident | $h:ident | $h:ident | $h:ident | $h:ident | $h:ident | $h:ident | $h:ident | $h:ident
     all_goals subst $h:ident))

theorem inert_mile {s : Str} (h : s ∈ inertTexts) (b : Bool) :
    Distance.fromMileString s b = none := by
  cases b <;> inert_cases h <;> rfl

theorem inert_meter {s : Str} (h : s ∈ inertTexts) : Distance.fromMeterString s = none := by
  inert_cases h <;> rfl

theorem inert_km {s : Str} (h : s ∈ inertTexts) : Distance.fromKmString s = none := by
  inert_cases h <;> rfl

theorem inert_height {s : Str} (h : s ∈ inertTexts) : Distance.fromHeightString s = none := by
  inert_cases h <;> rfl

theorem inert_runway {s : Str} (h : s ∈ inertTexts) (b : Bool) :
    Runway.fromString s b = none := by
  cases b <;> inert_cases h <;> rfl

theorem inert_cardinal {s : Str} (h : s ∈ inertTexts) (b b' : Bool) :
    Direction.fromCardinalString s b b' = none := by
  cases b <;> cases b' <;> inert_cases h <;> rfl

theorem inert_sector {s : Str} (h : s ∈ inertTexts) : Direction.fromSectorString s = none := by
  inert_cases h <;> rfl

theorem inert_fraction {s : Str} (h : s ∈ inertTexts) :
    fractionStrToUint s 0 s.length = none := by
  inert_cases h <;> rfl

theorem inert_uint {s : Str} (h : s ∈ inertTexts) (n : Nat) (hn : n = 2 ∨ n = 4) :
    strToUint s 0 n = none := by
  rcases hn with rfl | rfl <;> inert_cases h <;> rfl

theorem inert_variableMeters {s : Str} (h : s ∈ inertTexts) :
    regexMatch VisibilityGroup.variableMetersRgx s = none := by
  inert_cases h <;> rfl

theorem inert_ceiling {s : Str} (h : s ∈ inertTexts) :
    regexMatch CloudGroup.ceilingRgx s = none := by
  inert_cases h <;> rfl

theorem inert_obscuration {s : Str} (h : s ∈ inertTexts) :
    regexMatch CloudGroup.obscurationRgx s = none := by
  inert_cases h <;> rfl

theorem inert_pkWnd {s : Str} (h : s ∈ inertTexts) :
    regexMatch WindGroup.pkWndRgx s = none := by
  inert_cases h <;> rfl

theorem inert_varSector {s : Str} (h : s ∈ inertTexts) :
    WindGroup.parseVariableSector s = none := by
  inert_cases h <;> rfl

theorem inert_trend {s : Str} (h : s ∈ inertTexts) (p : ReportPart) :
    TrendGroup.parse s p = none := by
  cases p <;> inert_cases h <;> rfl

theorem inert_amount {s : Str} (h : s ∈ inertTexts) : CloudGroup.amountFromString s = none := by
  inert_cases h <;> rfl

theorem inert_weather {s : Str} (h : s ∈ inertTexts) (b : Bool) :
    WeatherPhenomena.fromString s b = none := by
  cases b <;> inert_cases h <;> rfl

theorem inert_snincr {s : Str} (h : s ∈ inertTexts) :
    Precipitation.fromSnincrString s = none := by
  inert_cases h <;> rfl

theorem inert_cloudType {s : Str} (h : s ∈ inertTexts) : CloudType.fromString s = none := by
  inert_cases h <;> rfl

theorem inert_6hourly {s : Str} (h : s ∈ inertTexts) :
    MinMaxTemperatureGroup.from6hourly s = none := by
  inert_cases h <;> rfl

theorem inert_forecast {s : Str} (h : s ∈ inertTexts) :
    MinMaxTemperatureGroup.fromForecast s = none := by
  inert_cases h <;> rfl

theorem inert_ltg {s : Str} (h : s ∈ inertTexts) : LightningGroup.fromLtgGroup s = none := by
  inert_cases h <;> rfl

theorem inert_hail {s : Str} (h : s ∈ inertTexts) (g : MiscGroup) :
    g.appendHailstoneFraction s = none := by
  inert_cases h <;> rfl

theorem inert_density {s : Str} (h : s ∈ inertTexts) (g : MiscGroup) :
    g.appendDensityAltitude s = none := by
  inert_cases h <;> rfl

/-- The words by which groups are continued are no keywords. -/
theorem inert_ne {s : Str} (h : s ∈ inertTexts) {w : Str}
    (hw : w ∈ [c!"WND", c!"MISG", c!"RWY", c!"ALL", c!"FROPA", c!"VIS", c!"V", c!"TEMPO",
      c!"UNAVBL", c!"RE//", c!"//", c!"AND", c!"DSNT", c!"VC", c!"CLD", c!"MOV", c!"ALT"]) :
    s ≠ w := by
  revert w
  inert_cases h <;> decide

theorem VisibilityGroup.firstOf_inert {g : VisibilityGroup} {o : VisibilityGroup × AppendResult}
    {fs : List (VisibilityGroup → Option VisibilityGroup)} (h : ∀ f ∈ fs, f g = none) :
    VisibilityGroup.firstOf g o fs = o := by
  induction fs with
  | nil => rfl
  | cons f fs ih =>
    simp only [VisibilityGroup.firstOf, h f (by simp)]
    exact ih (fun f' hf => h f' (by simp [hf]))

theorem WindGroup.append_inert (g : WindGroup) {s : Str} (h : s ∈ inertTexts)
    (md : ReportMetadata) : (g.append s md).2 ≠ .APPENDED := by
  have h1 := inert_ne h (w := c!"WND") (by decide)
  have h2 := inert_ne h (w := c!"MISG") (by decide)
  have h3 := inert_ne h (w := c!"RWY") (by decide)
  have h4 := inert_ne h (w := c!"ALL") (by decide)
  have h5 := inert_ne h (w := c!"FROPA") (by decide)
  have h6 := inert_uint h 2 (by simp)
  have h7 := inert_uint h 4 (by simp)
  simp only [WindGroup.append, WindGroup.appendVariableSector, WindGroup.appendWindShift,
    WindGroup.appendPeakWind, inert_varSector h, inert_pkWnd h, inert_runway h, h1, h2, h3, h4, h5,
    h6, h7, if_true, if_false, ne_eq, not_false_eq_true]
  repeat' split
  all_goals simp

theorem VisibilityGroup.append_inert (g : VisibilityGroup) {s : Str} (h : s ∈ inertTexts) :
    (g.append s).2 ≠ .APPENDED := by
  have h1 := inert_ne h (w := c!"VIS") (by decide)
  have h2 := inert_ne h (w := c!"MISG") (by decide)
  have hdir : ∀ n, g.appendDirection s n = none := fun n => by
    simp [VisibilityGroup.appendDirection, inert_cardinal h, inert_sector h]
  have hint : ∀ n, g.appendInteger s n = none := fun n => by
    simp only [VisibilityGroup.appendInteger, inert_mile h]
    repeat' split
    all_goals simp_all
  have hfi : ∀ n, g.appendFractionToIncompleteInteger s n = none := fun n => by
    simp [VisibilityGroup.appendFractionToIncompleteInteger, inert_mile h]
  have hrw : ∀ n, g.appendRunway s n = none := fun n => by
    simp [VisibilityGroup.appendRunway, inert_runway h]
  have hfr : ∀ n, g.appendFraction s n = none := fun n => by
    simp [VisibilityGroup.appendFraction, inert_mile h]
  have hvf : ∀ n, g.appendVariableMaxFraction s n = none := fun n => by
    simp [VisibilityGroup.appendVariableMaxFraction, inert_fraction h]
  have hm : ∀ n, g.appendMeters s n = none := fun n => by
    simp [VisibilityGroup.appendMeters, inert_meter h]
  have hvm : ∀ n, g.appendVariableMeters s n = none := fun n => by
    simp [VisibilityGroup.appendVariableMeters, inert_variableMeters h]
  have hv : ∀ n n', g.appendVariable s n n' = none := fun n n' => by
    inert_cases h <;> rfl
  simp only [VisibilityGroup.append, VisibilityGroup.firstOf, hdir, hint, hfi, hrw, hfr, hvf, hm,
    hvm, hv, h1, h2, if_false]
  split <;> simp

theorem CloudGroup.append_inert (g : CloudGroup) {s : Str} (h : s ∈ inertTexts) :
    (g.append s).2 ≠ .APPENDED := by
  have h1 := inert_ne h (w := c!"V") (by decide)
  have h2 := inert_ne h (w := c!"MISG") (by decide)
  simp only [CloudGroup.append, CloudGroup.appendVariableCloudAmount, CloudGroup.appendCeiling,
    CloudGroup.appendRunwayOrCardinalDirection, CloudGroup.appendObscuration, inert_amount h,
    inert_height h, inert_ceiling h, inert_runway h, inert_cardinal h, inert_obscuration h, h1, h2,
    if_true, ne_eq, not_false_eq_true]
  split <;> simp

theorem WeatherGroup.append_inert (g : WeatherGroup) {s : Str} (h : s ∈ inertTexts)
    (p : ReportPart) : (g.append s p).2 ≠ .APPENDED := by
  have h1 := inert_ne h (w := c!"MISG") (by decide)
  have h2 := inert_ne h (w := c!"TEMPO") (by decide)
  have h3 := inert_ne h (w := c!"UNAVBL") (by decide)
  have h4 := inert_ne h (w := c!"RE//") (by decide)
  have h5 := inert_ne h (w := c!"//") (by decide)
  simp only [WeatherGroup.append, WeatherGroup.parseWeatherWithoutEvent, inert_weather h, h1, h2,
    h3, h4, h5, if_true, if_false, ne_eq, not_false_eq_true, and_false, ite_self]
  repeat' split
  all_goals simp_all

theorem LightningGroup.append_inert (g : LightningGroup) {s : Str} (h : s ∈ inertTexts) :
    (g.append s).2 ≠ .APPENDED := by
  have h1 := inert_ne h (w := c!"AND") (by decide)
  have h2 := inert_ne h (w := c!"DSNT") (by decide)
  have h3 := inert_ne h (w := c!"VC") (by decide)
  simp only [LightningGroup.append, inert_ltg h, inert_cardinal h, inert_sector h, h1, h2, h3,
    if_false]
  repeat' split
  all_goals simp_all

theorem VicinityGroup.append_inert (g : VicinityGroup) {s : Str} (h : s ∈ inertTexts) :
    (g.append s).2 ≠ .APPENDED := by
  have h1 := inert_ne h (w := c!"AND") (by decide)
  have h2 := inert_ne h (w := c!"DSNT") (by decide)
  have h3 := inert_ne h (w := c!"VC") (by decide)
  have h4 := inert_ne h (w := c!"CLD") (by decide)
  have h5 := inert_ne h (w := c!"MOV") (by decide)
  simp only [VicinityGroup.append, VicinityGroup.appendDistance, VicinityGroup.appendDir1,
    VicinityGroup.appendDir2, VicinityGroup.rejectGroup, inert_km h, inert_cardinal h,
    inert_sector h, h1, h2, h3, h4, h5, if_false]
  split <;> simp

theorem MiscGroup.append_inert (g : MiscGroup) {s : Str} (h : s ∈ inertTexts) :
    (g.append s).2 ≠ .APPENDED := by
  have h1 := inert_ne h (w := c!"ALT") (by decide)
  have h2 := inert_ne h (w := c!"MISG") (by decide)
  have h3 : ¬ (s.length = 1 ∧ '1'.toNat ≤ (ch s 0).toNat ∧ (ch s 0).toNat ≤ '9'.toNat) := by
    inert_cases h <;> decide
  simp only [MiscGroup.append, inert_hail h, inert_density h, h1, h2, h3, if_false]
  split <;> simp

/-- No group but the unknown one absorbs a keyword or the empty text. -/
theorem Group.append_inert {g : Group} (hf : g.isFallback = false) {s : Str}
    (h : s ∈ inertTexts) (p : ReportPart) (md : ReportMetadata) {g' : Group} {r : AppendResult}
    (ha : g.append s p md = .ok (g', r)) : r ≠ .APPENDED := by
  have hm := inert_ne h (w := c!"MISG") (by decide)
  cases g with
  | keyword x => simp [Group.append, KeywordGroup.append] at ha; simp [← ha.2]
  | location x => simp [Group.append, LocationGroup.append] at ha; simp [← ha.2]
  | reportTime x => simp [Group.append, ReportTimeGroup.append] at ha; simp [← ha.2]
  | trend x =>
    simp only [Group.append, TrendGroup.append, inert_trend h, ite_self] at ha
    injection ha with ha; injection ha with _ ha; simp [← ha]
  | wind x =>
    simp only [Group.append] at ha
    injection ha with ha; injection ha with _ ha; rw [← ha]; exact x.append_inert h md
  | visibility x =>
    simp only [Group.append] at ha
    injection ha with ha; injection ha with _ ha; rw [← ha]; exact x.append_inert h
  | cloud x =>
    simp only [Group.append] at ha
    injection ha with ha; injection ha with _ ha; rw [← ha]; exact x.append_inert h
  | weather x =>
    simp only [Group.append] at ha
    injection ha with ha; injection ha with _ ha; rw [← ha]; exact x.append_inert h p
  | temperature x =>
    simp only [Group.append, TemperatureGroup.append] at ha
    injection ha with ha; injection ha with _ ha; rw [← ha]; split <;> simp
  | pressure x =>
    simp only [Group.append, PressureGroup.append] at ha
    injection ha with ha; injection ha with _ ha; rw [← ha]; split <;> simp
  | runwayState x => simp [Group.append, RunwayStateGroup.append] at ha; simp [← ha.2]
  | seaSurface x => simp [Group.append, SeaSurfaceGroup.append] at ha; simp [← ha.2]
  | minMaxTemperature x =>
    simp only [Group.append, MinMaxTemperatureGroup.append, MinMaxTemperatureGroup.append6hourly,
      MinMaxTemperatureGroup.appendForecast, inert_6hourly h, inert_forecast h, ite_self] at ha
    cases ht : x.t <;> simp [ht] at ha <;> simp [← ha.2]
  | precipitation x =>
    simp only [Group.append, PrecipitationGroup.append, inert_snincr h, ite_self] at ha
    injection ha with ha; injection ha with _ ha; rw [← ha]
    repeat' split
    all_goals simp
  | layerForecast x => simp [Group.append, LayerForecastGroup.append] at ha; simp [← ha.2]
  | pressureTendency x => simp [Group.append, PressureTendencyGroup.append] at ha; simp [← ha.2]
  | cloudTypes x =>
    simp only [Group.append, CloudTypesGroup.append, inert_cloudType h, ite_self] at ha
    by_cases hl : x.cldTp.length ≥ CloudTypesGroup.cldTpMaxSize
    · simp only [hl, if_true] at ha
      injection ha with ha; injection ha with _ ha; simp [← ha]
    · cases hg : x.cldTp.getLast? with
      | none => simp [hl, hg] at ha
      | some last =>
        simp only [hl, hg, if_false] at ha
        injection ha with ha; injection ha with _ ha; simp [← ha]
  | lowMidHighCloud x => simp [Group.append, LowMidHighCloudGroup.append] at ha; simp [← ha.2]
  | lightning x =>
    simp only [Group.append] at ha
    injection ha with ha; injection ha with _ ha; rw [← ha]; exact x.append_inert h
  | vicinity x =>
    simp only [Group.append] at ha
    injection ha with ha; injection ha with _ ha; rw [← ha]; exact x.append_inert h
  | misc x =>
    simp only [Group.append] at ha
    injection ha with ha; injection ha with _ ha; rw [← ha]; exact x.append_inert h
  | unknown x => simp [Group.isFallback] at hf

end Metaf
