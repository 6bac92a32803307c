import Verif.Spec.Decimal
import Verif.Spec.Values
import Verif.Model.GroupsB

/-!
Visibility in metres and runway visual range as written in a report.
-/

namespace Metaf.Spec

/-- The names of the octants and their directions in degrees. -/
def octants : List (Str × Nat) :=
  [(c!"N", 360), (c!"NE", 45), (c!"E", 90), (c!"SE", 135), (c!"S", 180), (c!"SW", 225),
   (c!"W", 270), (c!"NW", 315)]

/-- The text `s` is a visibility of `d` metres: four digits, where 9999 is more than 10 km, or four
slashes if not reported. -/
def MeterText (s : Str) (d : Distance) : Prop :=
  (s = c!"////" ∧ d = ⟨.NONE, none, .METERS⟩) ∨
  (s = c!"9999" ∧ d = ⟨.MORE_THAN, some 10000, .METERS⟩) ∨
  ∃ n < 9999, s = decimal 4 n ∧ d = ⟨.NONE, some n, .METERS⟩

/-- Text that can follow the visibility although it does not name a direction. The library reads
over it. -/
def StraySuffix (s : Str) : Prop :=
  (∀ p ∈ octants, s ≠ p.1) ∧ s ≠ c!"NDV" ∧
  ∃ a ∈ c!"NSWE", ∃ b ∈ [[], c!"W", c!"E", c!"D"], ∃ v ∈ [[], c!"V"], s = a :: (b ++ v)

/-- The text `s` after a visibility in metres says that the visibility is of this type and in this
direction. -/
def SuffixText (s : Str) (t : VisibilityType) (d : Option Direction) : Prop :=
  (s = [] ∧ t = .PREVAILING ∧ d = none) ∨
  (∃ n, (s, n) ∈ octants ∧ t = .DIRECTIONAL ∧ d = some ⟨n, .VALUE_CARDINAL⟩) ∨
  (s = c!"NDV" ∧ t = .PREVAILING_NDV ∧ d = some ⟨0, .NDV⟩) ∨
  (StraySuffix s ∧ t = .PREVAILING ∧ d = none)

/-- A runway visual range value: exact, above or below what can be measured. -/
inductive RvrLimit | exact | above | below
  deriving DecidableEq, Repr

def RvrLimit.text : RvrLimit → Str
  | exact => []
  | above => c!"P"
  | below => c!"M"

def RvrLimit.modifier : RvrLimit → Modifier
  | exact => .NONE
  | above => .MORE_THAN
  | below => .LESS_THAN

def rvrTrendText : RvrTrend → Str
  | .NONE => []
  | .NOT_REPORTED => c!"/"
  | .UPWARD => c!"U"
  | .NEUTRAL => c!"N"
  | .DOWNWARD => c!"D"

/-- Runway visual range: runway, value, maximum value, unit, a separator that can follow the unit,
trend. -/
structure RvrText where
  runway : Option Runway
  value : Option (RvrLimit × Nat)
  max : Option (RvrLimit × Nat)
  feet : Bool
  separator : Bool
  trend : RvrTrend
  deriving DecidableEq, Repr

namespace RvrText

/-- A separator needs a unit before it. After a unit a single slash is the separator, so that a
trend which is not reported needs both. A value not assigned to a runway is not reported. -/
def Ok (v : RvrText) : Prop :=
  (∀ r ∈ v.runway, r.rNumber < 100) ∧ (∀ x ∈ v.value, x.2 < 10000) ∧ (∀ x ∈ v.max, x.2 < 10000) ∧
  (v.separator = true → v.feet = true) ∧
  (v.feet = true → v.trend = .NOT_REPORTED → v.separator = true) ∧
  (v.runway = none → v.value = none ∧ v.trend ≠ .NOT_REPORTED)

instance (v : RvrText) : Decidable v.Ok := by unfold Ok; infer_instance

def valueText (x : RvrLimit × Nat) : Str := x.1.text ++ decimal 4 x.2

def runwayPart : Option Runway → Str
  | some r => c!"R" ++ decimal 2 r.rNumber ++ designatorText r.rDesignator
  | none => c!"R//"

def valuePart : Option (RvrLimit × Nat) → Str
  | some x => valueText x
  | none => c!"////"

def maxPart : Option (RvrLimit × Nat) → Str
  | some x => 'V' :: valueText x
  | none => []

def unitPart (feet separator : Bool) : Str :=
  if feet then (if separator then c!"FT/" else c!"FT") else []

def text (v : RvrText) : Str :=
  runwayPart v.runway ++ c!"/" ++ valuePart v.value ++ maxPart v.max ++
    unitPart v.feet v.separator ++ rvrTrendText v.trend

/-- The distance written. -/
def distance (o : Option (RvrLimit × Nat)) (feet : Bool) : Distance :=
  match o with
  | some (l, n) => ⟨l.modifier, some n, if feet then .FEET else .METERS⟩
  | none => ⟨.NONE, none, if feet then .FEET else .METERS⟩

/-- What is written. -/
def group (v : RvrText) : VisibilityGroup :=
  { visType := if v.max.isSome then .VARIABLE_RVR else .RVR
    rw := v.runway
    vis := distance v.value v.feet
    visMax := if v.max.isSome then distance v.max v.feet else {}
    rvrTrend := v.trend }

end RvrText

end Metaf.Spec
