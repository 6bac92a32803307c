import Verif.Props.ExplainTable
import Verif.Props.Heights

/-!
C101 and C102: the texts shown by `explain` (`/repo/examples/explain.cpp`) hold no markup, except what the
report itself holds, and the page determines the result of the parser.
-/

set_option linter.unusedSectionVars false

namespace Metaf.Props

open Metaf Metaf.Spec Metaf.Explain

variable [FloatIeee]

/-! ### Specification -/

/-- A printable ASCII character which does not begin a tag, or a line break. -/
def Plain (c : Char) : Prop := c = '\n' ∨ 32 ≤ c.toNat ∧ c.toNat ≤ 126 ∧ c ≠ '<'

instance (c : Char) : Decidable (Plain c) := inferInstanceAs (Decidable (_ ∨ _))

/-! ### Texts -/

/-- A text of such characters. -/
def PlainText (s : Str) : Prop := ∀ c ∈ s, Plain c

instance (s : Str) : Decidable (PlainText s) := inferInstanceAs (Decidable (∀ c ∈ s, _))

theorem plain_append (s t : Str) : PlainText (s ++ t) ↔ PlainText s ∧ PlainText t := by
  simp [PlainText, or_imp, forall_and]

theorem plain_cons (c : Char) (t : Str) : PlainText (c :: t) ↔ Plain c ∧ PlainText t := by
  simp [PlainText]

theorem plain_nil : PlainText [] ↔ True := by simp [PlainText]

theorem plain_char (n : Nat) (h : n < 10) : Plain (Char.ofNat (48 + n)) := by
  revert n; decide

theorem plain_isDigit {c : Char} (h : c.isDigit = true) : Plain c := by
  have h : 48 ≤ c.toNat ∧ c.toNat ≤ 57 := Char.isDigit_iff_toNat.mp h
  refine Or.inr ⟨by omega, by omega, ?_⟩
  rintro rfl
  revert h; decide

theorem plain_nat (n : Nat) : PlainText (showNat n) := by
  intro c hc
  exact plain_isDigit (Nat.isDigit_of_mem_toDigits (by decide) (by decide) hc)

theorem plain_int (n : Int) : PlainText (showInt n) := by
  unfold showInt
  split
  · rw [plain_cons]; exact ⟨by decide, plain_nat _⟩
  · exact plain_nat _

theorem plain_digits (w n : Nat) : PlainText (digits w n) := by
  induction w generalizing n with
  | zero => intro c hc; cases hc
  | succ w ih =>
    unfold digits
    rw [plain_append, plain_cons]
    exact ⟨ih _, plain_char _ (Nat.mod_lt _ (by decide)), fun c hc => by cases hc⟩

theorem plain_sign (q : Rat) : PlainText (sign q) := by
  unfold sign
  split <;> decide

theorem plain_toString (q : Rat) : PlainText (Explain.toString q) := by
  unfold Explain.toString
  dsimp only
  rw [plain_append, plain_append, plain_cons]
  exact ⟨⟨plain_sign q, plain_nat _⟩, by decide, plain_digits _ _⟩

theorem plain_sub {s t : Str} (h : PlainText s) (hs : ∀ c ∈ t, c ∈ s) : PlainText t :=
  fun c hc => h c (hs c hc)

theorem plain_roundTo (q : Rat) (d : Nat) : PlainText (roundTo q d) := by
  unfold roundTo
  dsimp only
  split
  · exact plain_toString q
  · split
    · refine plain_sub (plain_toString q) fun c hc => ?_
      exact List.mem_of_mem_drop (List.mem_of_mem_take hc)
    · exact plain_toString q

theorem plain_fraction {s : Str} (h : PlainText s) : PlainText (fraction (stripZeros s)) := by
  have hz : PlainText (stripZeros s) := by
    refine plain_sub h fun c hc => ?_
    unfold stripZeros at hc
    rw [List.mem_reverse] at hc
    exact List.mem_reverse.mp ((List.dropWhile_suffix _).subset hc)
  unfold fraction
  split
  · decide
  · rw [plain_cons]; exact ⟨by decide, hz⟩


theorem plain_float (q : Rat) : PlainText (showFloat q) := by
  have hs : ∀ (a : Str) (e : Int), PlainText a → PlainText (a ++
      'e' :: (if e < 0 then '-' else '+') ::
          (if e.natAbs < 10 then '0' :: showNat e.natAbs else showNat e.natAbs)) := by
    intro a e ha
    rw [plain_append, plain_cons, plain_cons]
    refine ⟨ha, by decide, ?_, ?_⟩
    · split <;> decide
    · split
      · rw [plain_cons]; exact ⟨by decide, plain_nat _⟩
      · exact plain_nat _
  have hn : ∀ (a b : Nat) (s : Str), PlainText s →
      PlainText (sign q ++ showNat a ++ fraction (stripZeros s)) := by
    intro a b s h
    rw [plain_append, plain_append]
    exact ⟨⟨plain_sign q, plain_nat _⟩, plain_fraction h⟩
  unfold showFloat
  split
  · decide
  · dsimp only
    split <;> split
    all_goals first
      | exact hn _ 0 _ (plain_digits _ _)
      | exact hs _ _ (hn _ 0 _ (plain_digits _ _))


/-! ### Tables -/

theorem plain_reportTypeToString (k : ReportType) : PlainText (reportTypeToString k) := by cases k <;> decide +kernel

theorem plain_reportErrorToString (k : ReportError) : PlainText (reportErrorToString k) := by cases k <;> decide +kernel

theorem plain_speedUnitToString (k : SpeedUnit) : PlainText (speedUnitToString k) := by cases k <;> decide +kernel

theorem plain_distanceUnitToString (k : DistanceUnit) : PlainText (distanceUnitToString k) := by cases k <;> decide +kernel

theorem plain_distanceMilesFractionToString (k : MilesFraction) : PlainText (distanceMilesFractionToString k) := by cases k <;> decide +kernel

theorem plain_cardinalDirectionToString (k : Cardinal) : PlainText (cardinalDirectionToString k) := by cases k <;> decide +kernel

theorem plain_brakingActionToString (k : BrakingAction) : PlainText (brakingActionToString k) := by cases k <;> decide +kernel

theorem plain_stateOfSeaSurfaceToString (k : StateOfSurface) : PlainText (stateOfSeaSurfaceToString k) := by cases k <;> decide +kernel

theorem plain_cloudAmountToString (k : Metaf.Amount) : PlainText (cloudAmountToString k) := by cases k <;> decide +kernel

theorem plain_convectiveTypeToString (k : ConvectiveType) : PlainText (convectiveTypeToString k) := by cases k <;> decide +kernel

theorem plain_weatherPhenomenaQualifierToString (k : Qualifier) : PlainText (weatherPhenomenaQualifierToString k) := by cases k <;> decide +kernel

theorem plain_weatherPhenomenaDescriptorToString (k : Descriptor) : PlainText (weatherPhenomenaDescriptorToString k) := by cases k <;> decide +kernel

theorem plain_weatherPhenomenaWeatherToString (k : Weather) : PlainText (weatherPhenomenaWeatherToString k) := by cases k <;> decide +kernel

theorem plain_probabilityToString (k : Probability) : PlainText (probabilityToString k) := by cases k <;> decide +kernel

theorem plain_visTrendToString (k : RvrTrend) : PlainText (visTrendToString k) := by cases k <;> decide +kernel

theorem plain_runwayStateDepositsToString (k : Deposits) : PlainText (runwayStateDepositsToString k) := by cases k <;> decide +kernel

theorem plain_runwayStateExtentToString (k : Extent) : PlainText (runwayStateExtentToString k) := by cases k <;> decide +kernel

theorem plain_layerForecastGroupTypeToString (k : LayerForecastType) : PlainText (layerForecastGroupTypeToString k) := by cases k <;> decide +kernel

theorem plain_pressureTendencyTypeToString (k : PressureTendencyType) : PlainText (pressureTendencyTypeToString k) := by cases k <;> decide +kernel

theorem plain_pressureTendencyTrendToString (k : TendencyTrend) : PlainText (pressureTendencyTrendToString k) := by cases k <;> decide +kernel

theorem plain_cloudTypeToString (k : CloudTypeKind) : PlainText (cloudTypeToString k) := by cases k <;> decide +kernel

theorem plain_cloudLowLayerToString (k : LowLayer) : PlainText (cloudLowLayerToString k) := by cases k <;> decide +kernel

theorem plain_cloudMidLayerToString (k : MidLayer) : PlainText (cloudMidLayerToString k) := by cases k <;> decide +kernel

theorem plain_cloudHighLayerToString (k : HighLayer) : PlainText (cloudHighLayerToString k) := by cases k <;> decide +kernel

theorem plain_keywordText (k : KeywordType) : PlainText (keywordText k) := by cases k <;> decide +kernel

theorem plain_vicinityText (k : VicinityType) : PlainText (vicinityText k) := by cases k <;> decide +kernel

theorem plain_modifierText (k : Modifier) : PlainText (modifierText k) := by cases k <;> decide +kernel

theorem plain_frequencyText (k : Frequency) : PlainText (frequencyText k) := by cases k <;> decide +kernel

theorem plain_colourText (k : MiscType) : PlainText (colourText k) := by cases k <;> decide +kernel

/-- Proves that a text consists of such characters. -/
local macro "plain" : tactic => `(tactic| repeat' first
    | with_reducible exact plain_nat _
    | with_reducible exact plain_roundTo _ _
    | with_reducible exact plain_float _
    | with_reducible exact plain_reportTypeToString _
    | with_reducible exact plain_reportErrorToString _
    | with_reducible exact plain_speedUnitToString _
    | with_reducible exact plain_distanceUnitToString _
    | with_reducible exact plain_distanceMilesFractionToString _
    | with_reducible exact plain_cardinalDirectionToString _
    | with_reducible exact plain_brakingActionToString _
    | with_reducible exact plain_stateOfSeaSurfaceToString _
    | with_reducible exact plain_cloudAmountToString _
    | with_reducible exact plain_convectiveTypeToString _
    | with_reducible exact plain_weatherPhenomenaQualifierToString _
    | with_reducible exact plain_weatherPhenomenaDescriptorToString _
    | with_reducible exact plain_weatherPhenomenaWeatherToString _
    | with_reducible exact plain_probabilityToString _
    | with_reducible exact plain_visTrendToString _
    | with_reducible exact plain_runwayStateDepositsToString _
    | with_reducible exact plain_runwayStateExtentToString _
    | with_reducible exact plain_layerForecastGroupTypeToString _
    | with_reducible exact plain_pressureTendencyTypeToString _
    | with_reducible exact plain_pressureTendencyTrendToString _
    | with_reducible exact plain_cloudTypeToString _
    | with_reducible exact plain_cloudLowLayerToString _
    | with_reducible exact plain_cloudMidLayerToString _
    | with_reducible exact plain_cloudHighLayerToString _
    | with_reducible exact plain_keywordText _
    | with_reducible exact plain_vicinityText _
    | with_reducible exact plain_modifierText _
    | with_reducible exact plain_frequencyText _
    | with_reducible exact plain_colourText _
    | (rw [plain_append]; refine ⟨?_, ?_⟩)
    | split
    | decide +kernel)

theorem plain_runway (r : Runway) : PlainText (explainRunway r) := by
  unfold explainRunway
  plain

theorem plain_time (t : MetafTime) : PlainText (explainMetafTime t) := by
  unfold explainMetafTime
  plain

theorem plain_temperature (t : Temperature) : PlainText (explainTemperature t) := by
  unfold explainTemperature
  plain

theorem plain_speed (t : Speed) : PlainText (explainSpeed t) := by
  unfold explainSpeed speedIn
  plain

theorem plain_direction (d : Direction) (b : Bool) : PlainText (explainDirection d b) := by
  unfold explainDirection
  dsimp only
  plain

theorem plain_pressure (t : Pressure) : PlainText (explainPressure t) := by
  unfold explainPressure
  plain

theorem plain_precipitation (t : Precipitation) : PlainText (explainPrecipitation t) := by
  unfold explainPrecipitation
  plain

theorem plain_friction (t : SurfaceFriction) : PlainText (explainSurfaceFriction t) := by
  unfold explainSurfaceFriction
  plain

theorem plain_wave (t : WaveHeight) : PlainText (explainWaveHeight t) := by
  unfold explainWaveHeight
  plain

theorem plain_special (w : WeatherPhenomena) : PlainText (specialWeatherPhenomenaToString w) := by
  unfold specialWeatherPhenomenaToString
  split
  · rename_i x hx
    have : ∀ x ∈ specialWeatherPhenomena, PlainText x.2.2.2 := by decide +kernel
    exact this _ (List.mem_of_find?_eq_some hx)
  · decide

theorem plain_words (p : Weather) (ws : List Weather) : PlainText (weatherWords p ws) := by
  induction ws generalizing p with
  | nil => intro c hc; cases hc
  | cons w ws ih =>
    unfold weatherWords
    rw [plain_append]
    refine ⟨?_, ih w⟩
    plain

theorem plain_phenomena (w : WeatherPhenomena) : PlainText (explainWeatherPhenomena w) := by
  unfold explainWeatherPhenomena eventText
  dsimp only
  repeat' first
    | with_reducible exact plain_special _
    | with_reducible exact plain_words _ _
    | with_reducible exact plain_time _
    | with_reducible exact plain_weatherPhenomenaQualifierToString _
    | with_reducible exact plain_weatherPhenomenaDescriptorToString _
    | (rw [plain_append]; refine ⟨?_, ?_⟩)
    | split
    | decide +kernel

theorem plain_sector (l : List Direction) : PlainText (explainDirectionSector l) := by
  unfold explainDirectionSector
  have key : ∀ (ls : List Str), (∀ s ∈ ls, PlainText s) → PlainText (c!", ".intercalate ls) := by
    intro ls
    induction ls with
    | nil => intro _; decide
    | cons s ls ih =>
      intro h
      have ih := ih fun s hs => h s (List.mem_cons_of_mem _ hs)
      have hs := h s List.mem_cons_self
      cases ls with
      | nil => simpa using hs
      | cons t ls =>
        rw [List.intercalate_cons_cons, plain_append, plain_append]
        exact ⟨⟨hs, by decide⟩, ih⟩
  refine key _ fun s hs => ?_
  obtain ⟨d, -, rfl⟩ := List.mem_map.mp hs
  exact plain_cardinalDirectionToString _

/-! ### Groups -/

/-- What is computed consists of such characters. -/
def PlainRes (r : Res Str) : Prop := ∀ e, r = .ok e → PlainText e

theorem plainRes_text {s : Str} (h : PlainText s) : PlainRes (text s) := by
  intro e he
  obtain rfl := Except.ok.inj he
  exact h

theorem plainRes_nil : PlainRes (cat []) := by
  intro e he
  rw [cat_none] at he
  subst he
  exact plain_nil.mpr trivial

theorem plainRes_cons {r : Res Str} {rs : List (Res Str)} (h : PlainRes r) (hs : PlainRes (cat rs)) :
    PlainRes (cat (r :: rs)) := by
  intro e he
  rw [cat_more] at he
  obtain ⟨a, t, ha, ht, rfl⟩ := he
  rw [plain_append]
  exact ⟨h a ha, hs t ht⟩

theorem plainRes_map {α : Type} {f : α → Res Str} {l : List α} (h : ∀ a, PlainRes (f a)) :
    PlainRes (cat (l.map f)) := by
  induction l with
  | nil => exact plainRes_nil
  | cons a l ih => exact plainRes_cons (h a) ih

theorem plainRes_opt {c : Bool} {r : Res Str} (h : PlainRes r) : PlainRes (opt c r) := by
  cases c
  · exact plainRes_text (plain_nil.mpr trivial)
  · exact h

theorem plainRes_onSome {α : Type} {v : Option α} {f : α → Res Str} (h : ∀ a, PlainRes (f a)) :
    PlainRes (onSome v f) := by
  cases v
  · exact plainRes_text (plain_nil.mpr trivial)
  · exact h _

theorem plainRes_value {α : Type} {v : Option α} {f : α → Res Str} (h : ∀ a, PlainRes (f a)) :
    PlainRes (value v f) := by
  cases v
  · intro e he; cases he
  · exact h _

theorem plainRes_listed {d : Nat → Option (List Direction)} {f : List Direction → Res Str}
    (h : ∀ a, PlainRes (f a)) : PlainRes (listed d f) := by
  unfold listed
  split
  · intro e he; cases he
  · exact h _

theorem plainRes_int (q : Rat) : PlainRes (showAsInt q) := by
  unfold showAsInt
  cases Summary.toInt q with
  | error f => intro e he; cases he
  | ok n => exact plainRes_text (plain_int n)

theorem plainRes_notice (b : Bool) : PlainRes (notice b) :=
  plainRes_opt (plainRes_text (by decide +kernel))

theorem plain_miles (n : Nat) (f : MilesFraction) : PlainText (showMiles n f) := by
  unfold showMiles
  plain

/-- Proves that what is computed consists of such characters. -/
local macro "plains" : tactic => `(tactic| repeat' first
    | with_reducible exact plainRes_notice _
    | with_reducible exact plainRes_int _
    | with_reducible exact plainRes_nil
    | with_reducible exact plain_runway _
    | with_reducible exact plain_time _
    | with_reducible exact plain_temperature _
    | with_reducible exact plain_speed _
    | with_reducible exact plain_direction _ _
    | with_reducible exact plain_pressure _
    | with_reducible exact plain_precipitation _
    | with_reducible exact plain_friction _
    | with_reducible exact plain_wave _
    | with_reducible exact plain_phenomena _
    | with_reducible exact plain_sector _
    | with_reducible exact plain_miles _ _
    | with_reducible refine plainRes_cons ?_ ?_
    | assumption
    | with_reducible refine plainRes_text ?_
    | with_reducible refine plainRes_opt ?_
    | with_reducible refine plainRes_onSome fun _ => ?_
    | with_reducible refine plainRes_value fun _ => ?_
    | with_reducible refine plainRes_listed fun _ => ?_
    | plain)

theorem plain_distance (d : Distance) : PlainRes (explainDistance d) := by
  unfold explainDistance distanceConverted
  plains

theorem plain_cloudType (c : CloudType) : PlainRes (explainCloudType c) := by
  unfold explainCloudType
  have := plain_distance c.ht
  plains

theorem plain_trend (g : TrendGroup) : PlainRes (visitTrendGroup g) := by
  unfold visitTrendGroup trendText trendTimes trendProbability
  plains

theorem plain_wind (g : WindGroup) : PlainRes (visitWindGroup g) := by
  unfold visitWindGroup windGroupText shiftText windText sectorText
  have := plain_distance g.wShHeight
  plains

theorem plain_visibility (g : VisibilityGroup) : PlainRes (visitVisibilityGroup g) := by
  unfold visitVisibilityGroup visibilityText visibilitySector visibilityRange Explain.rvrTrendText
  have := plain_distance g.visibility
  have := plain_distance g.minVisibility
  have := plain_distance g.maxVisibility
  plains

theorem plain_cloud (g : CloudGroup) : PlainRes (visitCloudGroup g) := by
  unfold visitCloudGroup cloudText ceilingPlace
  have := plain_distance g.height
  have := plain_distance g.verticalVisibility
  have := plain_distance g.minHeight
  have := plain_distance g.maxHeight
  have : PlainRes (onSome g.cloudType explainCloudType) := plainRes_onSome plain_cloudType
  plains

theorem plain_weatherGroup (g : WeatherGroup) : PlainRes (visitWeatherGroup g) := by
  unfold visitWeatherGroup
  cases g.isValid with
  | error f => intro e he; cases he
  | ok b =>
    have : PlainRes (phenomenaText g) :=
      plainRes_map fun p => plainRes_text (by rw [plain_append]; exact ⟨by decide, plain_phenomena p⟩)
    show PlainRes (cat [notice b, Explain.weatherText g])
    unfold Explain.weatherText
    plains

theorem plain_temperatureGroup (g : TemperatureGroup) : PlainRes (visitTemperatureGroup g) := by
  unfold visitTemperatureGroup temperatureText
  plains

theorem plain_pressureGroup (g : PressureGroup) : PlainRes (visitPressureGroup g) := by
  unfold visitPressureGroup pressureText
  plains

theorem plain_runwayState (g : RunwayStateGroup) : PlainRes (visitRunwayStateGroup g) := by
  unfold visitRunwayStateGroup runwayStateText
  plains

theorem plain_seaSurface (g : SeaSurfaceGroup) : PlainRes (visitSeaSurfaceGroup g) := by
  unfold visitSeaSurfaceGroup
  plains

theorem plain_minMax (g : MinMaxTemperatureGroup) : PlainRes (visitMinMaxTemperatureGroup g) := by
  unfold visitMinMaxTemperatureGroup minMaxText observedText
  plains

theorem plain_precipitationGroup (g : PrecipitationGroup) : PlainRes (visitPrecipitationGroup g) := by
  unfold visitPrecipitationGroup precipitationText
  dsimp only
  plains

theorem plain_layer (g : LayerForecastGroup) : PlainRes (visitLayerForecastGroup g) := by
  unfold visitLayerForecastGroup
  have := plain_distance g.layerBaseHeight
  have := plain_distance g.layerTopHeight
  plains

theorem plain_tendency (g : PressureTendencyGroup) : PlainRes (visitPressureTendencyGroup g) := by
  unfold visitPressureTendencyGroup pressureTendencyText
  plains

theorem plain_cloudTypes (g : CloudTypesGroup) : PlainRes (visitCloudTypesGroup g) := by
  unfold visitCloudTypesGroup
  have : PlainRes (cat (g.cldTp.map fun ct => cat [text c!"\n", explainCloudType ct])) :=
    plainRes_map fun c => plainRes_cons (plainRes_text (by decide))
      (plainRes_cons (plain_cloudType c) plainRes_nil)
  plains

theorem plain_lowMidHigh (g : LowMidHighCloudGroup) : PlainRes (visitLowMidHighCloudGroup g) := by
  unfold visitLowMidHighCloudGroup
  plains

theorem plain_lightning (g : LightningGroup) : PlainRes (visitLightningGroup g) := by
  unfold visitLightningGroup lightningTypes
  have := plain_distance g.dist
  plains

theorem plain_vicinity (g : VicinityGroup) : PlainRes (visitVicinityGroup g) := by
  unfold visitVicinityGroup
  have := plain_distance g.dist
  plains

theorem plain_misc (g : MiscGroup) : PlainRes (visitMiscGroup g) := by
  unfold visitMiscGroup miscText
  have : PlainText colourCodeBlack := by decide +kernel
  plains

/-- The text about a group consists of such characters, of those of its raw text, and of those of the
location it names. -/
theorem visit_plain {g : Group} {p : ReportPart} {s e : Str} (h : visitor.visit g p s = .ok e) :
    ∀ c ∈ e, Plain c ∨ c ∈ s ∨ ∃ l, g = .location l ∧ c ∈ l.location := by
  have fin : ∀ {r : Res Str}, PlainRes r → r = .ok e → ∀ c ∈ e, Plain c ∨ c ∈ s ∨ ∃ l, g = .location l ∧ c ∈ l.location :=
    fun hr he c hc => Or.inl (hr e he c hc)
  have mid : ∀ {b : Bool} {a t : Str}, PlainText a → cat [notice b, text a, text t] = .ok e →
      ∀ c ∈ e, Plain c ∨ c ∈ t := by
    intro b a t ha he c hc
    rw [cat_more] at he
    obtain ⟨x, y, hx, hy, rfl⟩ := he
    simp only [cat_text, cat_none] at hy
    obtain ⟨_, ⟨_, rfl, rfl⟩, rfl⟩ := hy
    rw [List.append_nil, List.mem_append, List.mem_append] at hc
    rcases hc with hc | hc | hc
    · exact Or.inl (plainRes_notice b x hx c hc)
    · exact Or.inl (ha c hc)
    · exact Or.inr hc
  cases g with
  | keyword g => exact fin (plainRes_cons (plainRes_notice _)
      (plainRes_cons (plainRes_text (plain_keywordText _)) plainRes_nil)) h
  | location g =>
    intro c hc
    rcases mid (by decide +kernel) h c hc with hp | hp
    · exact Or.inl hp
    · exact Or.inr (Or.inr ⟨g, rfl, hp⟩)
  | reportTime g => exact fin (plainRes_cons (plainRes_notice _)
      (plainRes_cons (plainRes_text (by decide +kernel)) (plainRes_cons (plainRes_text (plain_time _)) plainRes_nil))) h
  | trend g => exact fin (plain_trend g) h
  | wind g => exact fin (plain_wind g) h
  | visibility g => exact fin (plain_visibility g) h
  | cloud g => exact fin (plain_cloud g) h
  | weather g => exact fin (plain_weatherGroup g) h
  | temperature g => exact fin (plain_temperatureGroup g) h
  | pressure g => exact fin (plain_pressureGroup g) h
  | runwayState g => exact fin (plain_runwayState g) h
  | seaSurface g => exact fin (plain_seaSurface g) h
  | minMaxTemperature g => exact fin (plain_minMax g) h
  | precipitation g => exact fin (plain_precipitationGroup g) h
  | layerForecast g => exact fin (plain_layer g) h
  | pressureTendency g => exact fin (plain_tendency g) h
  | cloudTypes g => exact fin (plain_cloudTypes g) h
  | lowMidHighCloud g => exact fin (plain_lowMidHigh g) h
  | lightning g => exact fin (plain_lightning g) h
  | vicinity g => exact fin (plain_vicinity g) h
  | misc g => exact fin (plain_misc g) h
  | unknown g =>
    intro c hc
    rcases mid (by decide +kernel) h c hc with hp | hp
    · exact Or.inl hp
    · exact Or.inr (Or.inl hp)

end Metaf.Props
