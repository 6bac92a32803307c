import Verif.Spec.Decimal
import Verif.Model.Amounts

/-!
The text forms of the value types.
-/

namespace Metaf.Spec

variable [FloatSem]

/-- Runway designator as text. -/
def designatorText : Designator → Str
  | .NONE => []
  | .LEFT => c!"L"
  | .CENTER => c!"C"
  | .RIGHT => c!"R"

/-- A day of the calendar (Gregorian). -/
def daysInMonth (year month : Nat) : Nat :=
  if month = 2 then (if year % 4 = 0 ∧ (year % 100 ≠ 0 ∨ year % 400 = 0) then 29 else 28)
  else if month = 4 ∨ month = 6 ∨ month = 9 ∨ month = 11 then 30
  else 31

/-- The date exists. -/
def RealDate (d : Date) : Prop :=
  1 ≤ d.month ∧ d.month ≤ 12 ∧ 1 ≤ d.day ∧ d.day ≤ daysInMonth d.year d.month

/-- The date `a` is not later than the date `b`. -/
def NotLater (a b : Date) : Prop :=
  a.year < b.year ∨ a.year = b.year ∧ (a.month < b.month ∨ a.month = b.month ∧ a.day ≤ b.day)

/-- The months of two dates: `a` is in the month of `b` or in the month before it. -/
def SameOrPreviousMonth (a b : Date) : Prop :=
  a.year = b.year ∧ a.month = b.month ∨ a.year = b.year ∧ a.month + 1 = b.month ∨
    a.year + 1 = b.year ∧ a.month = 12 ∧ b.month = 1

end Metaf.Spec
