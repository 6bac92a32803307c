import Mathlib.Algebra.Order.Ring.Rat
import Mathlib.Algebra.Order.Field.Rat
import Mathlib.Algebra.Order.Group.Abs
import Mathlib.Algebra.Order.Group.Unbundled.Abs

/-!
Floating point arithmetic of metaf.

A `float` or `double` value is the rational number it denotes.  The result of an arithmetic
operation is the exact rational result passed through a rounding function.  The rounding functions
are parameters that satisfy laws of IEEE 754 binary32 and binary64 with round-to-nearest (subnormal
numbers included; overflow excluded by the magnitude bounds).  Infinities and NaN are not modelled:
no operation of metaf produces them from finite reported values.
-/

namespace Metaf

/-- Rounding functions of `float` and `double` and the library function `std::pow`. -/
class FloatSem where
  /-- Rounding of a rational to `float`. -/
  f32 : Rat → Rat
  /-- Rounding of a rational to `double`. -/
  f64 : Rat → Rat
  /-- `std::pow` on `double`. -/
  pow : Rat → Rat → Rat
  f32_mono : ∀ x y : Rat, x ≤ y → f32 x ≤ f32 y
  f64_mono : ∀ x y : Rat, x ≤ y → f64 x ≤ f64 y
  f32_err : ∀ x : Rat, |x| ≤ 2 ^ 127 → |f32 x - x| ≤ |x| / 2 ^ 24 + 1 / 2 ^ 150
  f64_err : ∀ x : Rat, |x| ≤ 2 ^ 1023 → |f64 x - x| ≤ |x| / 2 ^ 53 + 1 / 2 ^ 1075
  f32_int : ∀ n : Int, |n| ≤ 2 ^ 24 → f32 n = n
  f64_int : ∀ n : Int, |n| ≤ 2 ^ 53 → f64 n = n
  f32_idem : ∀ x : Rat, f32 (f32 x) = f32 x
  f64_f32 : ∀ x : Rat, f64 (f32 x) = f32 x

export FloatSem (f32 f64)

/-- `std::round`: to nearest integer, halves away from zero. -/
def roundHalfAway (q : Rat) : Int := if q < 0 then - (-q + 1 / 2).floor else (q + 1 / 2).floor

/-- Exact arithmetic satisfies the laws; used to evaluate the model on examples. `pow` is a
placeholder that is never evaluated in the examples. -/
@[reducible] def exactFloat : FloatSem where
  f32 := id
  f64 := id
  pow := fun _ _ => 1
  f32_mono := fun _ _ h => h
  f64_mono := fun _ _ h => h
  f32_err := fun x _ => by
    simp only [id, sub_self, abs_zero]
    exact add_nonneg (div_nonneg (abs_nonneg x) (by decide +kernel)) (by decide +kernel)
  f64_err := fun x _ => by
    simp only [id, sub_self, abs_zero]
    exact add_nonneg (div_nonneg (abs_nonneg x) (pow_nonneg rfl 53)) (div_nonneg rfl (pow_nonneg rfl 1075))
  f32_int := fun _ _ => rfl
  f64_int := fun _ _ => rfl
  f32_idem := fun _ => rfl
  f64_f32 := fun _ => rfl

end Metaf
