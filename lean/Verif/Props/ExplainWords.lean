import Verif.Proofs.Numerals
import Verif.Props.ExplainTable
import Verif.Proofs.Util
import Mathlib.Data.List.Nodup

/-!
C105: the words of `explain` (`/repo/examples/explain.cpp`) tell all values apart.
-/

set_option linter.unusedSectionVars false

namespace Metaf.Props

open Metaf Metaf.Spec Metaf.Explain

/-! ### Lemmas -/

theorem injective_of_list {α : Type} {f : α → Str} (l : List α) (h : ∀ a, a ∈ l) (hn : (l.map f).Nodup) :
    Function.Injective f := fun _ _ e => List.inj_on_of_nodup_map hn (h _) (h _) e

/-- Two texts of characters of one kind, each followed by a character of another kind. -/
theorem split_unique (p : Char → Bool) {a a' b b' : Str} {c c' : Char} (ha : ∀ x ∈ a, p x = true)
    (ha' : ∀ x ∈ a', p x = true) (hc : p c = false) (hc' : p c' = false) (h : a ++ c :: b = a' ++ c' :: b') :
    a = a' ∧ c = c' ∧ b = b' := by
  induction a generalizing a' with
  | nil =>
    cases a' with
    | nil =>
      obtain ⟨h1, h2⟩ := List.cons.inj h
      exact ⟨rfl, h1, h2⟩
    | cons x a' =>
      obtain ⟨rfl, _⟩ := List.cons.inj h
      rw [ha' c (by simp)] at hc
      cases hc
  | cons x a ih =>
    cases a' with
    | nil =>
      obtain ⟨rfl, _⟩ := List.cons.inj h
      rw [ha x (by simp)] at hc'
      cases hc'
    | cons y a' =>
      obtain ⟨rfl, h2⟩ := List.cons.inj h
      obtain ⟨rfl, h3, h4⟩ := ih (fun z hz => ha z (by simp [hz])) (fun z hz => ha' z (by simp [hz])) h2
      exact ⟨rfl, h3, h4⟩

/-- A number with at least two digits. -/
def twoDigits (n : Nat) : Str := (if n < 10 then c!"0" else []) ++ showNat n

theorem showNat_digit (n : Nat) : ∀ x ∈ showNat n, x.isDigit = true := by
  intro x hx
  exact Nat.isDigit_of_mem_toDigits (by decide) (by decide) hx

theorem twoDigits_digit (n : Nat) : ∀ x ∈ twoDigits n, x.isDigit = true := by
  intro x hx
  unfold twoDigits at hx
  split at hx
  · rcases List.mem_append.mp hx with h | h
    · rw [List.mem_singleton.mp h]; rfl
    · exact showNat_digit n x h
  · exact showNat_digit n x hx

theorem twoDigits_read (n : Nat) : readDigits (twoDigits n) = n := by
  unfold twoDigits
  split
  · exact (showNat_numeral n).2.2.2
  · exact (showNat_numeral n).2.2.2

theorem twoDigits_inj {n m : Nat} (h : twoDigits n = twoDigits m) : n = m := by
  rw [← twoDigits_read n, h, twoDigits_read]

/-! ### Tables -/

theorem reportTypeToString_injective : Function.Injective reportTypeToString :=
  injective_of_list
    [.UNKNOWN, .METAR, .TAF]
    (by intro a; cases a <;> decide) (by decide +kernel)

theorem reportErrorToString_injective : Function.Injective reportErrorToString :=
  injective_of_list
    [.NONE, .EMPTY_REPORT, .EXPECTED_REPORT_TYPE_OR_LOCATION, .EXPECTED_LOCATION, .EXPECTED_REPORT_TIME,
     .EXPECTED_TIME_SPAN, .UNEXPECTED_REPORT_END, .UNEXPECTED_GROUP_AFTER_NIL, .UNEXPECTED_GROUP_AFTER_CNL,
     .UNEXPECTED_NIL_OR_CNL_IN_REPORT_BODY, .AMD_ALLOWED_IN_TAF_ONLY, .CNL_ALLOWED_IN_TAF_ONLY,
     .MAINTENANCE_INDICATOR_ALLOWED_IN_METAR_ONLY, .REPORT_TOO_LARGE]
    (by intro a; cases a <;> decide) (by decide +kernel)

theorem keywordText_injective : Function.Injective Explain.keywordText :=
  injective_of_list
    [.METAR, .SPECI, .TAF, .AMD, .NIL, .CNL, .COR, .AUTO, .CAVOK, .RMK, .MAINTENANCE_INDICATOR, .AO1, .AO2,
     .AO1A, .AO2A, .NOSPECI]
    (by intro a; cases a <;> decide) (by decide +kernel)

theorem speedUnitToString_injective : Function.Injective speedUnitToString :=
  injective_of_list
    [.KNOTS, .METERS_PER_SECOND, .KILOMETERS_PER_HOUR, .MILES_PER_HOUR]
    (by intro a; cases a <;> decide) (by decide +kernel)

theorem distanceUnitToString_injective : Function.Injective distanceUnitToString :=
  injective_of_list
    [.METERS, .STATUTE_MILES, .FEET]
    (by intro a; cases a <;> decide) (by decide +kernel)

theorem distanceMilesFractionToString_injective : Function.Injective distanceMilesFractionToString :=
  injective_of_list
    [.NONE, .F_1_16, .F_1_8, .F_3_16, .F_1_4, .F_5_16, .F_3_8, .F_1_2, .F_5_8, .F_3_4, .F_7_8]
    (by intro a; cases a <;> decide) (by decide +kernel)

theorem modifierText_injective : Function.Injective Explain.modifierText :=
  injective_of_list
    [.NONE, .LESS_THAN, .MORE_THAN, .DISTANT, .VICINITY]
    (by intro a; cases a <;> decide) (by decide +kernel)

theorem cardinalDirectionToString_injective : Function.Injective cardinalDirectionToString :=
  injective_of_list
    [.NOT_REPORTED, .VRB, .NDV, .N, .S, .W, .E, .NW, .NE, .SW, .SE, .TRUE_N, .TRUE_W, .TRUE_S, .TRUE_E, .OHD,
     .ALQDS, .UNKNOWN]
    (by intro a; cases a <;> decide) (by decide +kernel)

theorem brakingActionToString_injective : Function.Injective brakingActionToString :=
  injective_of_list
    [.NONE, .POOR, .MEDIUM_POOR, .MEDIUM, .MEDIUM_GOOD, .GOOD]
    (by intro a; cases a <;> decide) (by decide +kernel)

theorem stateOfSeaSurfaceToString_injective : Function.Injective stateOfSeaSurfaceToString :=
  injective_of_list
    [.NOT_REPORTED, .CALM_GLASSY, .CALM_RIPPLED, .SMOOTH, .SLIGHT, .MODERATE, .ROUGH, .VERY_ROUGH, .HIGH,
     .VERY_HIGH, .PHENOMENAL]
    (by intro a; cases a <;> decide) (by decide +kernel)

theorem cloudAmountToString_injective : Function.Injective cloudAmountToString :=
  injective_of_list
    [.NOT_REPORTED, .NCD, .NSC, .NONE_CLR, .NONE_SKC, .FEW, .SCATTERED, .BROKEN, .OVERCAST, .OBSCURED,
     .VARIABLE_FEW_SCATTERED, .VARIABLE_SCATTERED_BROKEN, .VARIABLE_BROKEN_OVERCAST]
    (by intro a; cases a <;> decide) (by decide +kernel)

theorem convectiveTypeToString_injective : Function.Injective convectiveTypeToString :=
  injective_of_list
    [.NONE, .NOT_REPORTED, .TOWERING_CUMULUS, .CUMULONIMBUS]
    (by intro a; cases a <;> decide) (by decide +kernel)

theorem weatherPhenomenaWeatherToString_injective : Function.Injective weatherPhenomenaWeatherToString :=
  injective_of_list
    [.NOT_REPORTED, .DRIZZLE, .RAIN, .SNOW, .SNOW_GRAINS, .ICE_CRYSTALS, .ICE_PELLETS, .HAIL, .SMALL_HAIL,
     .UNDETERMINED, .MIST, .FOG, .SMOKE, .VOLCANIC_ASH, .DUST, .SAND, .HAZE, .SPRAY, .DUST_WHIRLS, .SQUALLS,
     .FUNNEL_CLOUD, .SANDSTORM, .DUSTSTORM]
    (by intro a; cases a <;> decide) (by decide +kernel)

theorem probabilityToString_injective : Function.Injective probabilityToString :=
  injective_of_list
    [.NONE, .PROB_30, .PROB_40]
    (by intro a; cases a <;> decide) (by decide +kernel)

theorem visTrendToString_injective : Function.Injective visTrendToString :=
  injective_of_list
    [.NONE, .NOT_REPORTED, .UPWARD, .NEUTRAL, .DOWNWARD]
    (by intro a; cases a <;> decide) (by decide +kernel)

theorem runwayStateDepositsToString_injective : Function.Injective runwayStateDepositsToString :=
  injective_of_list
    [.CLEAR_AND_DRY, .DAMP, .WET_AND_WATER_PATCHES, .RIME_AND_FROST_COVERED, .DRY_SNOW, .WET_SNOW, .SLUSH,
     .ICE, .COMPACTED_OR_ROLLED_SNOW, .FROZEN_RUTS_OR_RIDGES, .NOT_REPORTED]
    (by intro a; cases a <;> decide) (by decide +kernel)

theorem runwayStateExtentToString_injective : Function.Injective runwayStateExtentToString :=
  injective_of_list
    [.NONE, .LESS_THAN_10_PERCENT, .FROM_11_TO_25_PERCENT, .RESERVED_3, .RESERVED_4, .FROM_26_TO_50_PERCENT,
     .RESERVED_6, .RESERVED_7, .RESERVED_8, .MORE_THAN_51_PERCENT, .NOT_REPORTED]
    (by intro a; cases a <;> decide) (by decide +kernel)

theorem layerForecastGroupTypeToString_injective : Function.Injective layerForecastGroupTypeToString :=
  injective_of_list
    [.ICING_TRACE_OR_NONE, .ICING_LIGHT_MIXED, .ICING_LIGHT_RIME_IN_CLOUD,
     .ICING_LIGHT_CLEAR_IN_PRECIPITATION, .ICING_MODERATE_MIXED, .ICING_MODERATE_RIME_IN_CLOUD,
     .ICING_MODERATE_CLEAR_IN_PRECIPITATION, .ICING_SEVERE_MIXED, .ICING_SEVERE_RIME_IN_CLOUD,
     .ICING_SEVERE_CLEAR_IN_PRECIPITATION, .TURBULENCE_NONE, .TURBULENCE_LIGHT,
     .TURBULENCE_MODERATE_IN_CLEAR_AIR_OCCASIONAL, .TURBULENCE_MODERATE_IN_CLEAR_AIR_FREQUENT,
     .TURBULENCE_MODERATE_IN_CLOUD_OCCASIONAL, .TURBULENCE_MODERATE_IN_CLOUD_FREQUENT,
     .TURBULENCE_SEVERE_IN_CLEAR_AIR_OCCASIONAL, .TURBULENCE_SEVERE_IN_CLEAR_AIR_FREQUENT,
     .TURBULENCE_SEVERE_IN_CLOUD_OCCASIONAL, .TURBULENCE_SEVERE_IN_CLOUD_FREQUENT, .TURBULENCE_EXTREME]
    (by intro a; cases a <;> decide) (by decide +kernel)

theorem pressureTendencyTypeToString_injective : Function.Injective pressureTendencyTypeToString :=
  injective_of_list
    [.NOT_REPORTED, .INCREASING_THEN_DECREASING, .INCREASING_MORE_SLOWLY, .INCREASING,
     .INCREASING_MORE_RAPIDLY, .STEADY, .DECREASING_THEN_INCREASING, .DECREASING_MORE_SLOWLY, .DECREASING,
     .DECREASING_MORE_RAPIDLY, .RISING_RAPIDLY, .FALLING_RAPIDLY]
    (by intro a; cases a <;> decide) (by decide +kernel)

theorem pressureTendencyTrendToString_injective : Function.Injective pressureTendencyTrendToString :=
  injective_of_list
    [.NOT_REPORTED, .HIGHER, .HIGHER_OR_SAME, .SAME, .LOWER_OR_SAME, .LOWER]
    (by intro a; cases a <;> decide) (by decide +kernel)

theorem cloudLowLayerToString_injective : Function.Injective cloudLowLayerToString :=
  injective_of_list
    [.NONE, .CU_HU_CU_FR, .CU_MED_CU_CON, .CB_CAL, .SC_CUGEN, .SC_NON_CUGEN, .ST_NEB_ST_FR,
     .ST_FR_CU_FR_PANNUS, .CU_SC_NON_CUGEN_DIFFERENT_LEVELS, .CB_CAP, .NOT_OBSERVABLE]
    (by intro a; cases a <;> decide) (by decide +kernel)

theorem cloudMidLayerToString_injective : Function.Injective cloudMidLayerToString :=
  injective_of_list
    [.NONE, .AS_TR, .AS_OP_NS, .AC_TR, .AC_TR_LEN_PATCHES, .AC_TR_AC_OP_SPREADING, .AC_CUGEN_AC_CBGEN,
     .AC_DU_AC_OP_AC_WITH_AS_OR_NS, .AC_CAS_AC_FLO, .AC_OF_CHAOTIC_SKY, .NOT_OBSERVABLE]
    (by intro a; cases a <;> decide) (by decide +kernel)

theorem cloudHighLayerToString_injective : Function.Injective cloudHighLayerToString :=
  injective_of_list
    [.NONE, .CI_FIB_CI_UNC, .CI_SPI_CI_CAS_CI_FLO, .CI_SPI_CBGEN, .CI_FIB_CI_UNC_SPREADING,
     .CI_CS_LOW_ABOVE_HORIZON, .CI_CS_HIGH_ABOVE_HORIZON, .CS_NEB_CS_FIB_COVERING_ENTIRE_SKY, .CS, .CC,
     .NOT_OBSERVABLE]
    (by intro a; cases a <;> decide) (by decide +kernel)

theorem vicinityText_injective : Function.Injective Explain.vicinityText :=
  injective_of_list
    [.THUNDERSTORM, .CUMULONIMBUS, .CUMULONIMBUS_MAMMATUS, .TOWERING_CUMULUS, .ALTOCUMULUS_CASTELLANUS,
     .STRATOCUMULUS_STANDING_LENTICULAR, .ALTOCUMULUS_STANDING_LENTICULAR, .CIRROCUMULUS_STANDING_LENTICULAR,
     .ROTOR_CLOUD, .VIRGA, .PRECIPITATION_IN_VICINITY, .FOG, .FOG_SHALLOW, .FOG_PATCHES, .HAZE, .SMOKE,
     .BLOWING_SNOW, .BLOWING_SAND, .BLOWING_DUST]
    (by intro a; cases a <;> decide) (by decide +kernel)

theorem frequencyText_injective : Function.Injective Explain.frequencyText :=
  injective_of_list
    [.NONE, .OCCASIONAL, .FREQUENT, .CONSTANT]
    (by intro a; cases a <;> decide) (by decide +kernel)

/-! ### Theorems -/

/-- C105. Different times are shown differently. -/
theorem C105_time : Function.Injective explainMetafTime := by
  have key : ∀ (h m h' m' : Nat), twoDigits h ++ c!":" ++ twoDigits m ++ c!" GMT" =
      twoDigits h' ++ c!":" ++ twoDigits m' ++ c!" GMT" → h = h' ∧ m = m' := by
    intro h m h' m' e
    simp only [List.append_assoc, List.cons_append, List.nil_append] at e
    obtain ⟨e1, _, e2⟩ := split_unique Char.isDigit (twoDigits_digit h) (twoDigits_digit h') rfl rfl e
    obtain ⟨e3, _, _⟩ := split_unique Char.isDigit (twoDigits_digit m) (twoDigits_digit m') rfl rfl e2
    exact ⟨twoDigits_inj e1, twoDigits_inj e3⟩
  have first : ∀ (h m : Nat) (s : Str), 'd' :: s ≠ twoDigits h ++ c!":" ++ twoDigits m ++ c!" GMT" := by
    intro h m s e
    have h1 : twoDigits h ≠ [] := by
      unfold twoDigits
      split
      · simp
      · exact (showNat_numeral h).1
    cases hd : twoDigits h with
    | nil => exact h1 hd
    | cons c t =>
      rw [hd] at e
      have hc := twoDigits_digit h c (by rw [hd]; simp)
      obtain ⟨rfl, _⟩ := List.cons.inj e
      cases hc
  have shape : ∀ t : MetafTime, explainMetafTime t = (match t.dayValue with
      | none => []
      | some d => c!"day " ++ (showNat d ++ c!", ")) ++ (twoDigits t.hourValue ++ c!":" ++ twoDigits t.minuteValue ++ c!" GMT") := by
    intro t
    unfold explainMetafTime twoDigits
    cases t.dayValue <;> simp
  rintro ⟨d, h, m⟩ ⟨d', h', m'⟩ e
  rw [shape, shape] at e
  cases d with
  | none =>
    cases d' with
    | none =>
      obtain ⟨rfl, rfl⟩ := key _ _ _ _ e
      rfl
    | some d' => exact absurd e.symm (first _ _ _)
  | some d =>
    cases d' with
    | none => exact absurd e (first _ _ _)
    | some d' =>
      simp only [List.append_assoc] at e
      have e := List.append_cancel_left e
      obtain ⟨e1, _, e2⟩ := split_unique Char.isDigit (showNat_digit d) (showNat_digit d') rfl rfl e
      have e2 := List.cons.inj e2
      obtain ⟨rfl, rfl⟩ := key h m h' m' (by simpa using e2.2)
      rw [showNat_inj e1]

/-- C105. Different runways are shown differently. -/
theorem C105_runway : Function.Injective explainRunway := by
  have other : ∀ r : Runway, r.isAllRunways = false → r.isMessageRepetition = false → ∀ s, explainRunway r = s →
      s = c!"runway " ++ (twoDigits r.rNumber ++ (match r.rDesignator with
       | .NONE => []
       | .LEFT => c!" LEFT"
       | .CENTER => c!" CENTER"
       | .RIGHT => c!" RIGHT")) := by
    rintro r h1 h2 s rfl
    unfold explainRunway twoDigits
    rw [h1, h2]
    cases r.rDesignator <;> simp
  have all : ∀ r : Runway, r.isAllRunways = true → r = ⟨88, .NONE⟩ := by
    rintro ⟨n, d⟩ h
    simp only [Runway.isAllRunways, Bool.and_eq_true, beq_iff_eq] at h
    rw [h.1, h.2]
  have rep : ∀ r : Runway, r.isMessageRepetition = true → r = ⟨99, .NONE⟩ := by
    rintro ⟨n, d⟩ h
    simp only [Runway.isMessageRepetition, Bool.and_eq_true, beq_iff_eq] at h
    rw [h.1, h.2]
  have e1 : explainRunway ⟨88, .NONE⟩ = c!"all runways" := by decide
  have e2 : explainRunway ⟨99, .NONE⟩ = c!"same runway (repetition of last message)" := by decide
  intro r r' h
  cases a1 : r.isAllRunways <;> cases a2 : r.isMessageRepetition <;> cases b1 : r'.isAllRunways <;>
    cases b2 : r'.isMessageRepetition
  all_goals first
    | (rw [all r a1, all r' b1])
    | (rw [rep r a2, rep r' b2])
    | (exfalso; rw [all r a1, rep r' b2, e1, e2] at h; cases h)
    | (exfalso; rw [rep r a2, all r' b1, e1, e2] at h; cases h)
    | (exfalso; rw [all r a1, e1] at h; exact absurd (other r' b1 b2 _ h.symm) (by simp))
    | (exfalso; rw [rep r a2, e2] at h; exact absurd (other r' b1 b2 _ h.symm) (by simp))
    | (exfalso; rw [all r' b1, e1] at h; exact absurd (other r a1 a2 _ h) (by simp))
    | (exfalso; rw [rep r' b2, e2] at h; exact absurd (other r a1 a2 _ h) (by simp))
    | skip
  rw [other r a1 a2 _ rfl, other r' b1 b2 _ rfl] at h
  have h := List.append_cancel_left h
  obtain ⟨n, d⟩ := r
  obtain ⟨n', d'⟩ := r'
  dsimp only at h
  have hn : ∀ (x : Nat) (t : Str), twoDigits x ++ ' ' :: t ≠ twoDigits n ∧ twoDigits x ++ ' ' :: t ≠ twoDigits n' := by
    intro x t
    constructor <;> intro e
    · have := twoDigits_digit n ' ' (by rw [← e]; simp)
      cases this
    · have := twoDigits_digit n' ' ' (by rw [← e]; simp)
      cases this
  cases d <;> cases d' <;> simp only [List.append_nil] at h
  case NONE.NONE => rw [twoDigits_inj h]
  all_goals first
    | exact absurd h.symm (hn _ _).1
    | exact absurd h (hn _ _).2
    | (obtain ⟨h1, _, h2⟩ := split_unique Char.isDigit (twoDigits_digit n) (twoDigits_digit n') rfl rfl h
       first
         | (rw [twoDigits_inj h1]; done)
         | (exfalso; revert h2; decide))

/-- C105. Different keywords are explained differently. -/
theorem C105_keyword (g g' : KeywordGroup) (h : visitKeywordGroup g = visitKeywordGroup g') : g = g' := by
  obtain ⟨t⟩ := g
  obtain ⟨t'⟩ := g'
  simp [visitKeywordGroup, KeywordGroup.isValid, notice, cat, opt, text, bind, Except.bind] at h
  rw [keywordText_injective h]

/-- C105. Different stations are explained differently. -/
theorem C105_location (g g' : LocationGroup) (h : visitLocationGroup g = visitLocationGroup g') : g = g' := by
  obtain ⟨t⟩ := g
  obtain ⟨t'⟩ := g'
  simp [visitLocationGroup, LocationGroup.isValid, notice, cat, opt, text, bind, Except.bind] at h
  rw [h]

/-- C105. Different times of release are explained differently. -/
theorem C105_report_time (g g' : ReportTimeGroup) (h : visitReportTimeGroup g = visitReportTimeGroup g') : g = g' := by
  obtain ⟨t⟩ := g
  obtain ⟨t'⟩ := g'
  unfold visitReportTimeGroup at h
  cases h1 : (ReportTimeGroup.mk t).isValid <;> cases h2 : (ReportTimeGroup.mk t').isValid <;>
    simp [h1, h2, notice, cat, opt, text, groupNotValidMessage, bind, Except.bind] at h
  · rw [C105_time h]
  · rw [C105_time h]

/-- C105. Different cloud layers are explained differently. -/
theorem C105_layers (g g' : LowMidHighCloudGroup) (h : visitLowMidHighCloudGroup g = visitLowMidHighCloudGroup g') :
    g = g' := by
  obtain ⟨l, m, t⟩ := g
  obtain ⟨l', m', t'⟩ := g'
  have hl : ∀ l, ∀ x ∈ cloudLowLayerToString l, (x != '\n') = true := by
    intro l; cases l <;> decide +kernel
  have hm : ∀ l, ∀ x ∈ cloudMidLayerToString l, (x != '\n') = true := by
    intro l; cases l <;> decide +kernel
  have key : cloudLowLayerToString l ++ '\n' :: (c!"Mid cloud layer:\n" ++ (cloudMidLayerToString m ++ '\n' ::
      (c!"High cloud layer:\n" ++ cloudHighLayerToString t))) =
      cloudLowLayerToString l' ++ '\n' :: (c!"Mid cloud layer:\n" ++ (cloudMidLayerToString m' ++ '\n' ::
      (c!"High cloud layer:\n" ++ cloudHighLayerToString t'))) := by
    unfold visitLowMidHighCloudGroup at h
    cases h1 : (LowMidHighCloudGroup.mk l m t).isValid <;> cases h2 : (LowMidHighCloudGroup.mk l' m' t').isValid <;>
      simp [h1, h2, notice, cat, opt, text, groupNotValidMessage, bind, Except.bind] at h
    · simpa using h
    · simpa using h
  obtain ⟨e1, _, e2⟩ := split_unique (· != '\n') (hl l) (hl l') rfl rfl key
  obtain ⟨e3, _, e4⟩ := split_unique (· != '\n') (hm m) (hm m') rfl rfl (List.append_cancel_left e2)
  rw [cloudLowLayerToString_injective e1, cloudMidLayerToString_injective e3,
    cloudHighLayerToString_injective (List.append_cancel_left e4)]

/-- C105. The words for two values of one kind are never the same. -/
theorem C105_words :
    Function.Injective reportTypeToString ∧
    Function.Injective reportErrorToString ∧
    Function.Injective Explain.keywordText ∧
    Function.Injective speedUnitToString ∧
    Function.Injective distanceUnitToString ∧
    Function.Injective distanceMilesFractionToString ∧
    Function.Injective Explain.modifierText ∧
    Function.Injective cardinalDirectionToString ∧
    Function.Injective brakingActionToString ∧
    Function.Injective stateOfSeaSurfaceToString ∧
    Function.Injective cloudAmountToString ∧
    Function.Injective convectiveTypeToString ∧
    Function.Injective weatherPhenomenaWeatherToString ∧
    Function.Injective probabilityToString ∧
    Function.Injective visTrendToString ∧
    Function.Injective runwayStateDepositsToString ∧
    Function.Injective runwayStateExtentToString ∧
    Function.Injective layerForecastGroupTypeToString ∧
    Function.Injective pressureTendencyTypeToString ∧
    Function.Injective pressureTendencyTrendToString ∧
    Function.Injective cloudLowLayerToString ∧
    Function.Injective cloudMidLayerToString ∧
    Function.Injective cloudHighLayerToString ∧
    Function.Injective Explain.vicinityText ∧
    Function.Injective Explain.frequencyText :=
  ⟨reportTypeToString_injective,
    reportErrorToString_injective,
    keywordText_injective,
    speedUnitToString_injective,
    distanceUnitToString_injective,
    distanceMilesFractionToString_injective,
    modifierText_injective,
    cardinalDirectionToString_injective,
    brakingActionToString_injective,
    stateOfSeaSurfaceToString_injective,
    cloudAmountToString_injective,
    convectiveTypeToString_injective,
    weatherPhenomenaWeatherToString_injective,
    probabilityToString_injective,
    visTrendToString_injective,
    runwayStateDepositsToString_injective,
    runwayStateExtentToString_injective,
    layerForecastGroupTypeToString_injective,
    pressureTendencyTypeToString_injective,
    pressureTendencyTrendToString_injective,
    cloudLowLayerToString_injective,
    cloudMidLayerToString_injective,
    cloudHighLayerToString_injective,
    vicinityText_injective,
    frequencyText_injective⟩

example : visitLowMidHighCloudGroup ⟨.CU_HU_CU_FR, .AS_TR, .CI_FIB_CI_UNC⟩ ≠
    visitLowMidHighCloudGroup ⟨.CU_HU_CU_FR, .AS_TR, .CI_SPI_CBGEN⟩ := fun h => by cases C105_layers _ _ h

example : explainRunway ⟨8, .LEFT⟩ = c!"runway 08 LEFT" ∧ explainRunway ⟨88, .NONE⟩ = c!"all runways" ∧
    explainRunway ⟨88, .LEFT⟩ = c!"runway 88 LEFT" := by decide

example : explainMetafTime ⟨some 5, 11, 30⟩ ≠ explainMetafTime ⟨none, 11, 30⟩ := fun h => by cases C105_time h

example : visitKeywordGroup ⟨.CNL⟩ ≠ visitKeywordGroup ⟨.NIL⟩ := fun h => by cases C105_keyword _ _ h

example : visitReportTimeGroup ⟨⟨some 5, 11, 30⟩⟩ ≠ visitReportTimeGroup ⟨⟨some 5, 11, 31⟩⟩ :=
  fun h => by cases C105_report_time _ _ h

example : visitLocationGroup ⟨c!"EGLL"⟩ ≠ visitLocationGroup ⟨c!"EGKK"⟩ := fun h => by cases C105_location _ _ h

example : brakingActionToString .POOR ≠ brakingActionToString .GOOD :=
  fun h => by cases brakingActionToString_injective h

end Metaf.Props
