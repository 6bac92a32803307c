import Verif.Spec.Decimal
import Verif.Model.Basic

/-!
Temperatures as written in the body of a weather report and in remarks.
-/

namespace Metaf.Spec

/-- A temperature of two digits, with `M` if below zero, or `//` if it is missing. -/
inductive Degrees
  | missing
  | value (below : Bool) (n : Nat)
  deriving DecidableEq, Repr

namespace Degrees

/-- The number has two digits. -/
def Ok : Degrees → Prop
  | missing => True
  | value _ n => n < 100

def text : Degrees → Str
  | missing => c!"//"
  | value true n => c!"M" ++ decimal 2 n
  | value false n => decimal 2 n

/-- The temperature written; `M00` is told from `00`. -/
def temperature : Degrees → Temperature
  | missing => ⟨none, false, false⟩
  | value true n => ⟨some (-(n : Int)), true, false⟩
  | value false n => ⟨some n, false, false⟩

/-- Both values are there and the first is lower; minus zero is lower than zero. -/
def lower : Degrees → Degrees → Bool
  | value true n, value true m => decide (m < n)
  | value true _, value false _ => true
  | value false n, value false m => decide (n < m)
  | _, _ => false

end Degrees

/-- A temperature in tenths of a degree with sign, as written in remarks: `1` for below zero or `0`,
and three digits. -/
structure Tenths where
  below : Bool
  n : Nat
  deriving DecidableEq, Repr

namespace Tenths

def Ok (t : Tenths) : Prop := t.n < 1000

def text (t : Tenths) : Str := (if t.below then c!"1" else c!"0") ++ decimal 3 t.n

/-- Number of tenths with sign. -/
def tenths (t : Tenths) : Int := if t.below then -(t.n : Int) else t.n

/-- The temperature written; there is no minus zero. -/
def temperature (t : Tenths) : Temperature := ⟨some t.tenths, decide (t.tenths < 0), true⟩

end Tenths

end Metaf.Spec
