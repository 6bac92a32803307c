import Verif.Spec.Decimal
import Verif.Model.GroupsA

/-!
Wind as written in a report.
-/

namespace Metaf.Spec

/-- Direction of wind: tens of degrees, variable, or not reported. -/
inductive WindDirection
  | tens (n : Nat) | varying | missing
  deriving DecidableEq, Repr

namespace WindDirection

def Ok : WindDirection → Prop
  | tens n => n < 100
  | _ => True

def text : WindDirection → Str
  | tens n => decimal 3 (10 * n)
  | varying => c!"VRB"
  | missing => c!"///"

def direction : WindDirection → Direction
  | tens n => ⟨10 * n, .VALUE_DEGREES⟩
  | varying => ⟨0, .VARIABLE⟩
  | missing => ⟨0, .NOT_REPORTED⟩

end WindDirection

/-- A speed below 1000: two digits, or three where two are not enough. -/
def speedText (n : Nat) : Str := if n < 100 then decimal 2 n else decimal 3 n

/-- The units which can be written. -/
def unitText : SpeedUnit → Option Str
  | .KNOTS => some c!"KT"
  | .METERS_PER_SECOND => some c!"MPS"
  | .KILOMETERS_PER_HOUR => some c!"KMH"
  | .MILES_PER_HOUR => none

/-- Wind: height for wind shear in hundreds of feet, direction, speed, gust speed and unit. -/
structure WindText where
  shear : Option Nat
  dir : WindDirection
  speed : Option Nat
  gust : Option Nat
  unit : SpeedUnit
  deriving DecidableEq, Repr

namespace WindText

def Ok (w : WindText) : Prop :=
  (∀ h ∈ w.shear, h < 1000) ∧ w.dir.Ok ∧ (∀ n ∈ w.speed, n < 1000) ∧ (∀ n ∈ w.gust, n < 1000) ∧
    w.unit ≠ .MILES_PER_HOUR

def text (w : WindText) : Str :=
  (match w.shear with | some h => c!"WS" ++ decimal 3 h ++ c!"/" | none => []) ++
  w.dir.text ++
  (match w.speed with | some n => speedText n | none => c!"//") ++
  (match w.gust with | some n => c!"G" ++ speedText n | none => []) ++
  (unitText w.unit).getD []

/-- No wind: direction 000, speed 00, no gusts. -/
def Calm (w : WindText) : Prop :=
  w.shear = none ∧ w.dir = .tens 0 ∧ w.speed = some 0 ∧ w.gust = none

instance (w : WindText) : Decidable w.Calm := by unfold Calm; infer_instance

/-- A speed with its unit; not reported if absent. -/
def speedOf (o : Option Nat) (u : SpeedUnit) : Speed :=
  match o with
  | some n => ⟨some n, u⟩
  | none => {}

/-- What is written. -/
def group (w : WindText) : WindGroup :=
  if w.Calm then { windType := .SURFACE_WIND_CALM, wSpeed := speedOf w.speed w.unit }
  else
    { windType := if w.shear.isSome then .WIND_SHEAR else .SURFACE_WIND
      windDir := w.dir.direction
      wSpeed := speedOf w.speed w.unit
      gSpeed := speedOf w.gust w.unit
      wShHeight := match w.shear with
        | some h => ⟨.NONE, some (100 * h), .FEET⟩
        | none => {} }

end WindText

end Metaf.Spec
