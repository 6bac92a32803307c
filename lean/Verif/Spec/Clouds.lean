import Verif.Spec.Decimal
import Verif.Model.GroupsC

/-!
Cloud layers and cloud types as written in a report.
-/

namespace Metaf.Spec

/-- The texts for sky without clouds. -/
def noClouds : List (Str × Amount) :=
  [(c!"NCD", .NCD), (c!"NSC", .NSC), (c!"CLR", .NONE_CLR), (c!"SKC", .NONE_SKC)]

/-- The texts for the amount of clouds, and for vertical visibility. -/
def amountNames : List (Str × Amount) :=
  [(c!"FEW", .FEW), (c!"SCT", .SCATTERED), (c!"BKN", .BROKEN), (c!"OVC", .OVERCAST),
   (c!"VV", .OBSCURED), (c!"///", .NOT_REPORTED)]

/-- The texts for convective clouds. -/
def convectiveNames : List (Str × ConvectiveType) :=
  [([], .NONE), (c!"TCU", .TOWERING_CUMULUS), (c!"CB", .CUMULONIMBUS), (c!"///", .NOT_REPORTED)]

/-- Height in hundreds of feet, or not reported. -/
def heightText : Option Nat → Str
  | some n => decimal 3 n
  | none => c!"///"

def heightOf : Option Nat → Distance
  | some n => ⟨.NONE, some (100 * n), .FEET⟩
  | none => ⟨.NONE, none, .FEET⟩

/-- The text `s` is a cloud layer, or vertical visibility. -/
def LayerGroup (s : Str) (g : CloudGroup) : Prop :=
  ∃ at_ a h ct c, (at_, a) ∈ amountNames ∧ (∀ n ∈ h, n < 1000) ∧ (ct, c) ∈ convectiveNames ∧
    (a = .OBSCURED → c = .NONE) ∧ s = at_ ++ heightText h ++ ct ∧
    g = { tp := if a = .OBSCURED then .VERTICAL_VISIBILITY else .CLOUD_LAYER
          amnt := a
          heightOrVertVis := heightOf h
          convtype := c }

/-- The largest number of eighths of the sky covered, for an amount of clouds. -/
def maxOkta : Amount → Nat
  | .FEW => 2
  | .SCATTERED | .VARIABLE_FEW_SCATTERED => 4
  | .BROKEN | .VARIABLE_SCATTERED_BROKEN => 7
  | .OVERCAST | .VARIABLE_BROKEN_OVERCAST | .OBSCURED => 8
  | .NOT_REPORTED | .NCD | .NSC | .NONE_CLR | .NONE_SKC => 0

/-- Names of the types of clouds. -/
def cloudNames : List (Str × CloudTypeKind) :=
  [(c!"CB", .CUMULONIMBUS), (c!"TCU", .TOWERING_CUMULUS), (c!"CU", .CUMULUS),
   (c!"CF", .CUMULUS_FRACTUS), (c!"SC", .STRATOCUMULUS), (c!"NS", .NIMBOSTRATUS),
   (c!"ST", .STRATUS), (c!"SF", .STRATUS_FRACTUS), (c!"AS", .ALTOSTRATUS), (c!"AC", .ALTOCUMULUS),
   (c!"ACC", .ALTOCUMULUS_CASTELLANUS), (c!"CI", .CIRRUS), (c!"CS", .CIRROSTRATUS),
   (c!"CC", .CIRROCUMULUS)]

/-- Names of what else can obscure the sky. -/
def obscurationNames : List (Str × CloudTypeKind) :=
  [(c!"BLSN", .BLOWING_SNOW), (c!"BLDU", .BLOWING_DUST), (c!"BLSA", .BLOWING_SAND),
   (c!"IC", .ICE_CRYSTALS), (c!"RA", .RAIN), (c!"DZ", .DRIZZLE), (c!"SN", .SNOW),
   (c!"PL", .ICE_PELLETS), (c!"FU", .SMOKE), (c!"FG", .FOG), (c!"BR", .MIST), (c!"HZ", .HAZE),
   (c!"VA", .VOLCANIC_ASH)]

/-- A type of cloud or obscuration, and the number of eighths it covers. -/
def OktaText (s : Str) (c : CloudType) : Prop :=
  ∃ t k n, (t, k) ∈ cloudNames ++ obscurationNames ∧ n < 10 ∧ s = t ++ decimal 1 n ∧ c = ⟨k, {}, n⟩

/-- The number of eighths, the type of cloud and the height in hundreds of feet. -/
def TypeLayerText (s : Str) (c : CloudType) : Prop :=
  ∃ t k n h, (t, k) ∈ cloudNames ∧ n < 10 ∧ h < 1000 ∧ s = decimal 1 n ++ t ++ decimal 3 h ∧
    c = ⟨k, ⟨.NONE, some (100 * h), .FEET⟩, n⟩

/-- Two to four capital letters and a digit. -/
def Segment (s : Str) : Prop :=
  ∃ t n, 2 ≤ t.length ∧ t.length ≤ 4 ∧ (∀ c ∈ t, 'A' ≤ c ∧ c ≤ 'Z') ∧ n < 10 ∧ s = t ++ decimal 1 n

end Metaf.Spec
