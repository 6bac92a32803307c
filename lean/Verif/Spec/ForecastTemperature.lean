import Verif.Spec.Decimal
import Verif.Model.Basic

/-!
Forecast temperatures as written in a TAF, and observed extreme temperatures as written in remarks.
-/

namespace Metaf.Spec

/-- Letter after `T`: maximum, minimum or none. -/
inductive ExtremeLabel | max | min | none
  deriving DecidableEq, Repr

def ExtremeLabel.text : ExtremeLabel → Str
  | .max => c!"X" | .min => c!"N" | .none => []

/-- A forecast temperature: `T`, letter, temperature in degrees Celsius with `M` if below zero, day and
hour. -/
structure ForecastTemperature where
  label : ExtremeLabel
  below : Bool
  degrees : Nat
  day : Nat
  hour : Nat
  deriving DecidableEq, Repr

namespace ForecastTemperature

/-- All numbers have two digits. -/
def Ok (f : ForecastTemperature) : Prop := f.degrees < 100 ∧ f.day < 100 ∧ f.hour < 100

def text (f : ForecastTemperature) : Str :=
  c!"T" ++ f.label.text ++ (if f.below then c!"M" else []) ++ decimal 2 f.degrees ++ c!"/" ++
    decimal 2 f.day ++ decimal 2 f.hour ++ c!"Z"

/-- The temperature written. -/
def temperature (f : ForecastTemperature) : Temperature :=
  { tempValue := some (if f.below then -(f.degrees : Int) else f.degrees), freezing := f.below,
    precise := false }

/-- The time written. -/
def time (f : ForecastTemperature) : MetafTime := ⟨some f.day, f.hour, 0⟩

/-- The temperature `a` is lower than `b`; minus zero is lower than zero. -/
def lower (a b : ForecastTemperature) : Bool :=
  (a.below && !b.below) || (a.below && b.below && decide (b.degrees < a.degrees)) ||
    (!a.below && !b.below && decide (a.degrees < b.degrees))

end ForecastTemperature

end Metaf.Spec
