import Mathlib.Algebra.Order.Floor.Semifield
import Mathlib.Data.Rat.Floor
import Verif.Spec.Decimal

/-!
Distances in miles as text, and the visibility values of table 6-1 of the FMH-1.
-/

namespace Metaf.Spec

/-- The text `t` is a distance of `q` miles: one or two digits, or a fraction. The numerator of an
improper fraction is preceded by a digit of whole miles (`11/2` is 1 1/2). -/
def MileText (t : Str) (q : Rat) : Prop :=
  (∃ k n : Nat, (k = 1 ∨ k = 2) ∧ n < 10 ^ k ∧ t = decimal k n ∧ q = n) ∨
  (∃ i j a b : Nat, (i = 1 ∨ i = 2) ∧ (j = 1 ∨ j = 2) ∧ a < 10 ^ i ∧ b < 10 ^ j ∧
    t = decimal i a ++ '/' :: decimal j b ∧ 0 < a ∧ 0 < b ∧
    ((a < b ∧ q = a / b) ∨
     (b ≤ a ∧ a % 10 ≠ 0 ∧ q = (a / 10 : Nat) + (a % 10 : Nat) / b)))

/-- Visibility values to report, FMH-1 table 6-1, in sixteenths of a mile. -/
def ReportableMiles (n : Nat) : Prop :=
  n ∈ [0, 1, 2, 3, 4, 5, 6, 8, 10, 12, 14, 16, 18, 20, 22, 24, 26, 28, 30, 32, 36, 40, 44] ∨
  (∃ k, 3 ≤ k ∧ k ≤ 15 ∧ n = 16 * k) ∨ (∃ k, 3 ≤ k ∧ n = 16 * (5 * k))

end Metaf.Spec
