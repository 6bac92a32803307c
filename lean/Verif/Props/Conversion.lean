import Verif.Model.Amounts
import Verif.Model.Distance
import Verif.Proofs.Float
import Mathlib.Tactic.FieldSimp

/-!
C31: conversion of units.
-/

namespace Metaf.Props

set_option linter.unusedSectionVars false

variable [FloatSem]

/-! ### Multiplication and division by constants -/

theorem f32_rel {x : Rat} (hx : |x| ≤ 2 ^ 60) : |f32 x - x| ≤ |x| / 2 ^ 24 + 1 / 2 ^ 100 := by
  have h := FloatSem.f32_err x (le_trans hx (by norm_num))
  have : (1 : Rat) / 2 ^ 150 ≤ 1 / 2 ^ 100 := by norm_num
  linarith

theorem f64_rel {x : Rat} (hx : |x| ≤ 2 ^ 60) : |f64 x - x| ≤ |x| / 2 ^ 53 + 1 / 2 ^ 100 := by
  have h := FloatSem.f64_err x (le_trans hx (pow_le_pow_right₀ (by norm_num) (by norm_num)))
  have : (1 : Rat) / 2 ^ 1075 ≤ 1 / 2 ^ 100 :=
    one_div_le_one_div_of_le (by positivity) (pow_le_pow_right₀ (by norm_num) (by norm_num))
  linarith

/-- Two roundings of a number. -/
theorem round_twice {x y : Rat} (hy : 0 ≤ y) (hb : y ≤ 2 ^ 50) (hxy : |x - y| ≤ y / 2 ^ 40) :
    |f32 (f64 x) - y| ≤ y / 2 ^ 22 + 1 / 2 ^ 90 := by
  have hxy' := abs_le.mp hxy
  have hx0 : 0 ≤ x := by
    have : y / 2 ^ 40 ≤ y := div_le_self hy (by norm_num)
    linarith
  have hx1 : x ≤ 2 * y := by
    have : y / 2 ^ 40 ≤ y := div_le_self hy (by norm_num)
    linarith
  have h1 := f64_rel (x := x) (by rw [abs_of_nonneg hx0]; norm_num at hb ⊢; linarith)
  have hz0 := f64_nonneg hx0
  generalize f64 x = z at *
  rw [abs_of_nonneg hx0] at h1
  have h1' := abs_le.mp h1
  have hz1 : z ≤ 3 * y + 1 / 2 ^ 100 := by
    have : x / 2 ^ 53 ≤ y := by
      rw [div_le_iff₀ (by positivity)]; nlinarith
    linarith
  have h2 := f32_rel (x := z) (by rw [abs_of_nonneg hz0]; norm_num at hb hz1 ⊢; linarith)
  rw [abs_of_nonneg hz0] at h2
  have h2' := abs_le.mp h2
  have e1 : x ≤ y + y / 2 ^ 40 := by linarith
  have e2 : z ≤ y + y / 2 ^ 39 + 1 / 2 ^ 100 := by
    have : x / 2 ^ 53 ≤ y / 2 ^ 52 := by
      rw [div_le_div_iff₀ (by positivity) (by positivity)]; norm_num; linarith
    have : y / 2 ^ 52 ≤ y / 2 ^ 40 := div_le_div_of_nonneg_left hy (by positivity) (by norm_num)
    have : y / 2 ^ 40 + y / 2 ^ 40 = y / 2 ^ 39 := by ring
    linarith
  rw [abs_le]
  norm_num at *
  constructor <;> linarith

/-- Multiplication of a `float` by a constant. -/
theorem mulLit_near {v k : Rat} (hv : 0 ≤ v) (hv' : v ≤ 2 ^ 33) (hk : 1 / 100 ≤ k) (hk' : k ≤ 10000) :
    |Speed.mulLit v k - v * k| ≤ v * k / 2 ^ 22 + 1 / 2 ^ 90 := by
  unfold Speed.mulLit
  have hk0 : 0 ≤ k := by linarith
  have h1 := f64_rel (x := k) (by rw [abs_of_nonneg hk0]; norm_num at *; linarith)
  rw [abs_of_nonneg hk0] at h1
  apply round_twice (by positivity)
  · calc v * k ≤ 2 ^ 33 * 10000 := mul_le_mul hv' hk' hk0 (by norm_num)
      _ ≤ 2 ^ 50 := by norm_num
  · rw [← mul_sub, abs_mul, abs_of_nonneg hv, mul_div_assoc]
    apply mul_le_mul_of_nonneg_left _ hv
    norm_num at *
    linarith

/-- Division of a `float` by a constant. -/
theorem divLit_near {v k : Rat} (hv : 0 ≤ v) (hv' : v ≤ 2 ^ 33) (hk : 1 / 100 ≤ k) (hk' : k ≤ 10000) :
    |Speed.divLit v k - v / k| ≤ v / k / 2 ^ 22 + 1 / 2 ^ 90 := by
  unfold Speed.divLit
  have hk0 : 0 < k := by linarith
  have h1 := f64_rel (x := k) (by rw [abs_of_pos hk0]; norm_num at *; linarith)
  rw [abs_of_pos hk0] at h1
  generalize f64 k = l at *
  have h1' := abs_le.mp h1
  have hl : k / 2 ≤ l := by norm_num at *; linarith
  have hl0 : 0 < l := by linarith
  apply round_twice (by positivity)
  · calc v / k ≤ 2 ^ 33 / (1 / 100) := div_le_div₀ (by norm_num) hv' (by norm_num) hk
      _ ≤ 2 ^ 50 := by norm_num
  · have e : v / l - v / k = v / k * ((k - l) / l) := by field_simp
    rw [e, abs_mul, abs_of_nonneg (by positivity : 0 ≤ v / k), div_eq_mul_inv (v / k) (2 ^ 40)]
    apply mul_le_mul_of_nonneg_left _ (by positivity)
    rw [abs_div, abs_of_pos hl0, div_le_iff₀ hl0, abs_sub_comm]
    refine le_trans h1 ?_
    norm_num at *
    linarith

theorem mulLit_mono {v w k : Rat} (h : v ≤ w) (hk : 0 ≤ k) : Speed.mulLit v k ≤ Speed.mulLit w k :=
  FloatSem.f32_mono _ _ (FloatSem.f64_mono _ _ (mul_le_mul_of_nonneg_right h (f64_nonneg hk)))

theorem divLit_mono {v w k : Rat} (h : v ≤ w) (hk : 0 ≤ k) : Speed.divLit v k ≤ Speed.divLit w k :=
  FloatSem.f32_mono _ _ (FloatSem.f64_mono _ _ (div_le_div_of_nonneg_right h (f64_nonneg hk)))

theorem mulLit_nonneg {v k : Rat} (h : 0 ≤ v) (hk : 0 ≤ k) : 0 ≤ Speed.mulLit v k :=
  f32_nonneg (f64_nonneg (mul_nonneg h (f64_nonneg hk)))

theorem divLit_nonneg {v k : Rat} (h : 0 ≤ v) (hk : 0 ≤ k) : 0 ≤ Speed.divLit v k :=
  f32_nonneg (f64_nonneg (div_nonneg h (f64_nonneg hk)))

/-- Relative tolerance of conversions: 1 part in 100000. -/
def Close (x y : Rat) : Prop := |x - y| ≤ y / 100000 + 1 / 2 ^ 80

/-- A result near the product with one constant is close to the product with another constant that
differs little. -/
theorem close_of {x v k κ : Rat} (hv : 0 ≤ v) (hκ : 0 < κ)
    (h : |x - v * k| ≤ v * k / 2 ^ 22 + 1 / 2 ^ 90) (hk0 : 0 ≤ k)
    (hk : |k - κ| ≤ κ * (9 / 1000000)) : Close x (v * κ) := by
  unfold Close
  have h1 : |v * k - v * κ| ≤ v * κ * (9 / 1000000) := by
    rw [← mul_sub, abs_mul, abs_of_nonneg hv, mul_assoc]
    exact mul_le_mul_of_nonneg_left hk hv
  have h2 : v * k ≤ v * κ * 2 := by
    have := (abs_le.mp h1).2
    have h0 : 0 ≤ v * κ := by positivity
    linarith
  have h3 : |x - v * κ| ≤ |x - v * k| + |v * k - v * κ| := by
    have := abs_add_le (x - v * k) (v * k - v * κ)
    rwa [show x - v * k + (v * k - v * κ) = x - v * κ by ring] at this
  have h0 : 0 ≤ v * κ := by positivity
  generalize v * k = p at *
  generalize v * κ = q at *
  norm_num at *
  linarith

theorem close_mul {v k κ : Rat} (hv : 0 ≤ v) (hv' : v ≤ 2 ^ 33) (hk : 1 / 100 ≤ k) (hk' : k ≤ 10000)
    (hκ : 0 < κ) (hc : |k - κ| ≤ κ * (9 / 1000000)) : Close (Speed.mulLit v k) (v * κ) :=
  close_of hv hκ (mulLit_near hv hv' hk hk') (by linarith) hc

theorem close_div {v k κ : Rat} (hv : 0 ≤ v) (hv' : v ≤ 2 ^ 33) (hk : 1 / 100 ≤ k) (hk' : k ≤ 10000)
    (hκ : 0 < κ) (hc : |1 / k - κ| ≤ κ * (9 / 1000000)) : Close (Speed.divLit v k) (v * κ) := by
  have h := divLit_near hv hv' hk hk'
  rw [div_eq_mul_one_div v k] at h
  exact close_of hv hκ h (by positivity) hc

theorem close_self {v : Rat} (hv : 0 ≤ v) : Close v v := by
  unfold Close
  rw [sub_self, abs_zero]
  positivity

/-- The tolerance of the theorems: 2 parts in 100000, and a negligible absolute amount. -/
def Within (x y : Rat) : Prop := |x - y| ≤ y * (2 / 100000) + 1 / 2 ^ 60

theorem within_of_close {x y : Rat} (hy : 0 ≤ y) (h : Close x y) : Within x y := by
  unfold Close at h
  unfold Within
  norm_num at *
  linarith

/-- A rounding before the conversion. -/
theorem within_after {x z q κ : Rat} (hq : 0 ≤ q) (hκ : 0 < κ) (hκ' : κ ≤ 10000)
    (hz : |z - q| ≤ q / 2 ^ 22 + 1 / 2 ^ 90) (h : Close x (z * κ)) : Within x (q * κ) := by
  unfold Close at h
  unfold Within
  have h1 : |z * κ - q * κ| ≤ q * κ / 2 ^ 22 + 1 / 2 ^ 70 := by
    rw [← sub_mul, abs_mul, abs_of_pos hκ]
    calc |z - q| * κ ≤ (q / 2 ^ 22 + 1 / 2 ^ 90) * κ := mul_le_mul_of_nonneg_right hz hκ.le
      _ = q * κ / 2 ^ 22 + κ / 2 ^ 90 := by ring
      _ ≤ q * κ / 2 ^ 22 + 1 / 2 ^ 70 := by norm_num at *; linarith
  have h0 : 0 ≤ q * κ := by positivity
  generalize q * κ = a at *
  generalize z * κ = b at *
  have h' := abs_le.mp h
  have h1' := abs_le.mp h1
  rw [abs_le]
  norm_num at *
  constructor <;> linarith

/-- A number of type `unsigned int` as a `float`. -/
theorem float_of_unsigned {v : Nat} (hv : v < 2 ^ 32) :
    0 ≤ f32 (v : Rat) ∧ f32 (v : Rat) ≤ 2 ^ 33 ∧ |f32 (v : Rat) - v| ≤ (v : Rat) / 2 ^ 22 + 1 / 2 ^ 90 := by
  have h0 : (0 : Rat) ≤ v := by positivity
  have h1 : (v : Rat) ≤ 2 ^ 32 := by exact_mod_cast hv.le
  have h := f32_rel (x := (v : Rat)) (by rw [abs_of_nonneg h0]; exact le_trans h1 (by norm_num))
  rw [abs_of_nonneg h0] at h
  have hz := f32_nonneg h0
  generalize f32 (v : Rat) = z at *
  generalize (v : Rat) = q at *
  have h' := abs_le.mp h
  refine ⟨hz, ?_, ?_⟩
  · norm_num at *; linarith
  · refine le_trans h ?_
    norm_num at *
    linarith

/-- A stored number of miles as a `float`. -/
theorem float_of_miles {v : Nat} (hv : v < 2 ^ 32) :
    0 ≤ f32 (f32 (v : Rat) / 10000) ∧ f32 (f32 (v : Rat) / 10000) ≤ 2 ^ 33 ∧
      |f32 (f32 (v : Rat) / 10000) - (v : Rat) / 10000| ≤ (v : Rat) / 10000 / 2 ^ 22 + 1 / 2 ^ 90 := by
  have h0 : (0 : Rat) ≤ v := by positivity
  have h1 : (v : Rat) ≤ 2 ^ 32 := by exact_mod_cast hv.le
  have h := f32_rel (x := (v : Rat)) (by rw [abs_of_nonneg h0]; exact le_trans h1 (by norm_num))
  rw [abs_of_nonneg h0] at h
  have hz := f32_nonneg h0
  generalize f32 (v : Rat) = z at *
  generalize (v : Rat) = q at *
  have h' := abs_le.mp h
  have hz1 : z ≤ 2 ^ 33 := by norm_num at *; linarith
  have hz2 : 0 ≤ z / 10000 := by positivity
  have h2 := f32_rel (x := z / 10000) (by
    rw [abs_of_nonneg hz2]; norm_num at *; linarith)
  rw [abs_of_nonneg hz2] at h2
  have hw := f32_nonneg hz2
  generalize f32 (z / 10000) = w at *
  have h2' := abs_le.mp h2
  refine ⟨hw, ?_, ?_⟩
  · norm_num at *; linarith
  · rw [abs_le]
    norm_num at *
    constructor <;> linarith

/-- Two conversions with inverse factors lead back. -/
theorem within_back {v x y a b : Rat} (hv : 0 ≤ v) (ha : 0 < a) (hb : 0 < b) (hb' : b ≤ 10000)
    (hab : a * b = 1) (h1 : Within x (v * a)) (h2 : Within y (x * b)) :
    |y - v| ≤ v * (5 / 100000) + 1 / 2 ^ 40 := by
  unfold Within at h1 h2
  have e : v = v * a * b := by rw [mul_assoc, hab, mul_one]
  have h3 : |x * b - v| ≤ v * (2 / 100000) + 1 / 2 ^ 46 := by
    rw [show x * b - v = (x - v * a) * b by rw [sub_mul, ← e], abs_mul, abs_of_pos hb]
    calc |x - v * a| * b ≤ (v * a * (2 / 100000) + 1 / 2 ^ 60) * b :=
          mul_le_mul_of_nonneg_right h1 hb.le
      _ = v * (2 / 100000) + b / 2 ^ 60 := by
          rw [add_mul, show v * a * (2 / 100000) * b = v * a * b * (2 / 100000) by ring, ← e]; ring
      _ ≤ v * (2 / 100000) + 1 / 2 ^ 46 := by norm_num at *; linarith
  have h4 := abs_le.mp h3
  have h5 := abs_le.mp h2
  rw [abs_le]
  norm_num at *
  constructor <;> linarith

/-! ### Speed -/

/-- Metres per second in a unit of speed (international nautical mile, international mile). -/
def mpsPer : SpeedUnit → Rat
  | .KNOTS => 1852 / 3600
  | .METERS_PER_SECOND => 1
  | .KILOMETERS_PER_HOUR => 1000 / 3600
  | .MILES_PER_HOUR => 1609344 / 3600000

/-- C31, speed: conversion to the own unit gives the stored value, and a value is available exactly
if reported. -/
theorem C31_speed_own (x : Speed) (u : SpeedUnit) :
    (x.toUnit u).isSome = x.speedValue.isSome ∧
      ∀ v, x.speedValue = some v → v ≤ 2 ^ 24 → x.toUnit x.speedUnit = some (v : Rat) := by
  obtain ⟨v, w⟩ := x
  refine ⟨?_, ?_⟩
  · cases v <;> cases w <;> rfl
  · rintro n hn hle
    simp only at hn
    subst hn
    cases w <;> simp only [Speed.toUnit, Speed.knotsToUnit, Speed.mpsToUnit, Speed.kmhToUnit,
      Speed.mphToUnit, f32_nat hle]

/-- C31, speed: conversion agrees with the definition of the units, for every value the type can
hold. -/
theorem C31_speed_value (v : Nat) (hv : v < 2 ^ 32) (u w : SpeedUnit) :
    ∃ r, (⟨some v, u⟩ : Speed).toUnit w = some r ∧ Within r (v * (mpsPer u / mpsPer w)) := by
  obtain ⟨h0, h1, h2⟩ := float_of_unsigned hv
  have hq : (0 : Rat) ≤ v := by positivity
  have self : ∀ a : Rat, a ≠ 0 → Close (f32 (v : Rat)) (f32 (v : Rat) * (a / a)) := by
    intro a ha
    rw [div_self ha, mul_one]
    exact close_self h0
  cases u <;> cases w
  all_goals refine ⟨_, rfl, ?_⟩
  all_goals simp only [Speed.knotsToUnit, Speed.mpsToUnit, Speed.kmhToUnit, Speed.mphToUnit, mpsPer]
  all_goals refine within_after hq ?_ ?_ h2 ?_
  all_goals first
    | (norm_num; done)
    | (with_reducible refine self _ ?_); norm_num
    | (with_reducible refine close_mul h0 h1 ?_ ?_ ?_ ?_) <;> norm_num [abs_le]
    | (with_reducible refine close_div h0 h1 ?_ ?_ ?_ ?_) <;> norm_num [abs_le]

/-- C31, speed: conversion preserves order. -/
theorem C31_speed_order (v w : Nat) (h : v ≤ w) (u t : SpeedUnit) (x y : Rat)
    (hx : (⟨some v, u⟩ : Speed).toUnit t = some x) (hy : (⟨some w, u⟩ : Speed).toUnit t = some y) :
    x ≤ y := by
  have h1 : f32 (v : Rat) ≤ f32 (w : Rat) := FloatSem.f32_mono _ _ (by exact_mod_cast h)
  cases u <;> cases t
  all_goals
    simp only [Speed.toUnit, Speed.knotsToUnit, Speed.mpsToUnit, Speed.kmhToUnit,
      Speed.mphToUnit, Option.some.injEq] at hx hy
    subst hx hy
    first
    | exact h1
    | exact mulLit_mono h1 (by norm_num)
    | exact divLit_mono h1 (by norm_num)

/-! ### Distance -/

/-- Metres in a unit of distance (international foot and mile). -/
def metersPer : DistanceUnit → Rat
  | .METERS => 1
  | .STATUTE_MILES => 1609344 / 1000
  | .FEET => 3048 / 10000

/-- The amount of a stored distance in its unit. -/
def storedAmount (v : Nat) : DistanceUnit → Rat
  | .STATUTE_MILES => v / 10000
  | _ => v

/-- C31, distance: a value is available exactly if there is one, and conversion to the own unit
gives the stored value. -/
theorem C31_distance_own (x : Distance) (u : DistanceUnit) :
    (x.toUnit u).isSome = x.dist.isSome ∧ x.toUnit x.distUnit = x.distance ∧
      ∀ v, x.dist = some v → v ≤ 2 ^ 24 → x.distUnit ≠ .STATUTE_MILES →
        x.toUnit x.distUnit = some (v : Rat) := by
  obtain ⟨m, v, w⟩ := x
  refine ⟨?_, ?_, ?_⟩
  · cases v <;> cases w <;> rfl
  · cases v <;> cases w <;> rfl
  · rintro n hn hle hu
    simp only at hn hu
    subst hn
    cases w <;> simp_all [Distance.toUnit, Distance.distance, Distance.metersToUnit,
      Distance.feetToUnit, f32_nat hle]

/-- C31, distance: conversion agrees with the definition of the units, for every value the type can
hold. -/
theorem C31_distance_value (m : Modifier) (v : Nat) (hv : v < 2 ^ 32) (u w : DistanceUnit) :
    ∃ r, (⟨m, some v, u⟩ : Distance).toUnit w = some r ∧
      Within r (storedAmount v u * (metersPer u / metersPer w)) := by
  obtain ⟨h0, h1, h2⟩ := float_of_unsigned hv
  obtain ⟨g0, g1, g2⟩ := float_of_miles hv
  have hq : (0 : Rat) ≤ v := by positivity
  have hq' : (0 : Rat) ≤ (v : Rat) / 10000 := by positivity
  have self : ∀ a x : Rat, 0 ≤ x → a ≠ 0 → Close x (x * (a / a)) := by
    intro a x hx ha
    rw [div_self ha, mul_one]
    exact close_self hx
  cases u <;> cases w
  all_goals refine ⟨_, rfl, ?_⟩
  all_goals simp only [metersPer, storedAmount, Distance.metersToUnit, Distance.milesToUnit,
    Distance.feetToUnit]
  all_goals first
    | (with_reducible refine within_after hq ?_ ?_ h2 ?_)
    | (with_reducible refine within_after hq' ?_ ?_ g2 ?_)
  all_goals first
    | (norm_num; done)
    | (with_reducible refine self _ _ h0 ?_); norm_num
    | (with_reducible refine self _ _ g0 ?_); norm_num
    | (with_reducible refine close_mul h0 h1 ?_ ?_ ?_ ?_) <;> norm_num [abs_le]
    | (with_reducible refine close_div h0 h1 ?_ ?_ ?_ ?_) <;> norm_num [abs_le]
    | (with_reducible refine close_mul g0 g1 ?_ ?_ ?_ ?_) <;> norm_num [abs_le]

/-- C31, distance: conversion preserves order. -/
theorem C31_distance_order (m n : Modifier) (v w : Nat) (h : v ≤ w) (u t : DistanceUnit) (x y : Rat)
    (hx : (⟨m, some v, u⟩ : Distance).toUnit t = some x)
    (hy : (⟨n, some w, u⟩ : Distance).toUnit t = some y) : x ≤ y := by
  have h1 : f32 (v : Rat) ≤ f32 (w : Rat) := FloatSem.f32_mono _ _ (by exact_mod_cast h)
  have h2 : f32 (f32 (v : Rat) / 10000) ≤ f32 (f32 (w : Rat) / 10000) :=
    FloatSem.f32_mono _ _ (div_le_div_of_nonneg_right h1 (by norm_num))
  cases u <;> cases t
  all_goals
    simp only [Distance.toUnit, Distance.distance, Distance.metersToUnit, Distance.milesToUnit,
      Distance.feetToUnit, reduceCtorEq, reduceIte, Option.some.injEq] at hx hy
    subst hx hy
    first
    | with_reducible exact h1
    | with_reducible exact h2
    | (with_reducible refine mulLit_mono h1 ?_); norm_num
    | (with_reducible refine divLit_mono h1 ?_); norm_num
    | (with_reducible refine mulLit_mono h2 ?_); norm_num

/-! ### Pressure -/

/-- Hectopascals in a unit of pressure: the inch and the millimetre of mercury are those of mercury
with density 13595.1 kg/m3 under standard gravity 9.80665 m/s2. -/
def hpaPer : PressureUnit → Rat
  | .HECTOPASCAL => 1
  | .INCHES_HG => 254 / 10 * (135951 / 10 * 980665 / 100000 / 1000 / 100)
  | .MM_HG => 135951 / 10 * 980665 / 100000 / 1000 / 100

/-- C31, pressure: a value is available exactly if reported, and conversion to the own unit gives the
stored value. -/
theorem C31_pressure_own (x : Pressure) (u : PressureUnit) :
    (x.toUnit u).isSome = x.pressureValue.isSome ∧ x.toUnit x.pressureUnit = x.pressureValue := by
  obtain ⟨v, w⟩ := x
  cases v <;> cases w <;> exact ⟨rfl, rfl⟩

/-- C31, pressure: conversion agrees with the definition of the units. -/
theorem C31_pressure_value (v : Rat) (h0 : 0 ≤ v) (hv : v ≤ 2 ^ 33) (u w : PressureUnit) :
    ∃ r, (⟨some v, u⟩ : Pressure).toUnit w = some r ∧
      Within r (v * (hpaPer u / hpaPer w)) := by
  unfold Within
  have self : ∀ a : Rat, a ≠ 0 → |v - v * (a / a)| ≤ v * (a / a) * (2 / 100000) + 1 / 2 ^ 60 := by
    intro a ha
    rw [div_self ha, mul_one, sub_self, abs_zero]
    positivity
  have fin : ∀ r k κ : Rat, |r - v * k| ≤ v * k / 2 ^ 22 + 1 / 2 ^ 90 → 0 < κ →
      |k - κ| ≤ κ * (19 / 1000000) → |r - v * κ| ≤ v * κ * (2 / 100000) + 1 / 2 ^ 60 := by
    intro r k κ hr hκ hk
    have h1 : |v * k - v * κ| ≤ v * κ * (19 / 1000000) := by
      rw [← mul_sub, abs_mul, abs_of_nonneg h0, mul_assoc]
      exact mul_le_mul_of_nonneg_left hk h0
    have h3 : 0 ≤ v * κ := by positivity
    generalize v * k = a at *
    generalize v * κ = b at *
    have h1' := abs_le.mp h1
    have hr' := abs_le.mp hr
    rw [abs_le]
    norm_num at *
    constructor <;> linarith
  have mul : ∀ k κ : Rat, 1 / 100 ≤ k → k ≤ 10000 → 0 < κ → |k - κ| ≤ κ * (19 / 1000000) →
      |Speed.mulLit v k - v * κ| ≤ v * κ * (2 / 100000) + 1 / 2 ^ 60 :=
    fun k κ h1 h2 h3 h4 => fin _ k κ (mulLit_near h0 hv h1 h2) h3 h4
  have div : ∀ k κ : Rat, 1 / 100 ≤ k → k ≤ 10000 → 0 < κ → |1 / k - κ| ≤ κ * (19 / 1000000) →
      |Speed.divLit v k - v * κ| ≤ v * κ * (2 / 100000) + 1 / 2 ^ 60 := by
    intro k κ h1 h2 h3 h4
    have h := divLit_near h0 hv h1 h2
    rw [div_eq_mul_one_div v k] at h
    exact fin _ (1 / k) κ h h3 h4
  cases u <;> cases w
  all_goals refine ⟨_, rfl, ?_⟩
  all_goals simp only [hpaPer]
  all_goals first
    | (with_reducible refine self _ ?_); norm_num; done
    | (with_reducible refine mul _ _ ?_ ?_ ?_ ?_) <;> norm_num [abs_le]; done
    | (with_reducible refine div _ _ ?_ ?_ ?_ ?_) <;> norm_num [abs_le]; done

/-- C31, pressure: conversion to another unit and back leads to the value within 5 parts in 100000. -/
theorem C31_pressure_back (v : Rat) (h0 : 0 ≤ v) (hv : v ≤ 2 ^ 24) (u w : PressureUnit) :
    ∃ r q, (⟨some v, u⟩ : Pressure).toUnit w = some r ∧ (⟨some r, w⟩ : Pressure).toUnit u = some q ∧
      |q - v| ≤ v * (5 / 100000) + 1 / 2 ^ 40 := by
  have bound : ∀ a b : PressureUnit, 0 < hpaPer a / hpaPer b ∧ hpaPer a / hpaPer b ≤ 100 := by
    intro a b
    cases a <;> cases b <;> norm_num [hpaPer]
  have inv : hpaPer u / hpaPer w * (hpaPer w / hpaPer u) = 1 := by
    cases u <;> cases w <;> norm_num [hpaPer]
  obtain ⟨r, h1, h2⟩ := C31_pressure_value v h0 (le_trans hv (by norm_num)) u w
  have hr0 : 0 ≤ r := by
    cases u <;> cases w
    all_goals
      simp only [Pressure.toUnit, Option.some.injEq] at h1
      subst h1
      first
      | with_reducible exact h0
      | (with_reducible refine mulLit_nonneg h0 ?_); norm_num
      | (with_reducible refine divLit_nonneg h0 ?_); norm_num
  have hr1 : r ≤ 2 ^ 33 := by
    unfold Within at h2
    have h3 : v * (hpaPer u / hpaPer w) ≤ 2 ^ 24 * 100 :=
      mul_le_mul hv (bound u w).2 (bound u w).1.le (by norm_num)
    have := (abs_le.mp h2).2
    generalize v * (hpaPer u / hpaPer w) = z at *
    norm_num at *
    linarith
  obtain ⟨q, h3, h4⟩ := C31_pressure_value r hr0 hr1 w u
  exact ⟨r, q, h1, h3, within_back h0 (bound u w).1 (bound w u).1
    (le_trans (bound w u).2 (by norm_num)) inv h2 h4⟩

/-- C31, pressure: conversion preserves order. -/
theorem C31_pressure_order (v w : Rat) (h : v ≤ w) (u t : PressureUnit) (x y : Rat)
    (hx : (⟨some v, u⟩ : Pressure).toUnit t = some x)
    (hy : (⟨some w, u⟩ : Pressure).toUnit t = some y) : x ≤ y := by
  cases u <;> cases t
  all_goals
    simp only [Pressure.toUnit, Option.some.injEq] at hx hy
    subst hx hy
    first
    | with_reducible exact h
    | (with_reducible refine mulLit_mono h ?_); norm_num
    | (with_reducible refine divLit_mono h ?_); norm_num

/-! ### Precipitation -/

/-- Millimetres in a unit of precipitation. -/
def mmPer : PrecipitationUnit → Rat
  | .MM => 1
  | .INCHES => 254 / 10

/-- C31, precipitation: a value is available exactly if reported, and conversion to the own unit
gives the stored value. -/
theorem C31_precipitation_own (x : Precipitation) (u : PrecipitationUnit) :
    (x.toUnit u).isSome = x.precipValue.isSome ∧ x.toUnit x.precipUnit = x.precipValue := by
  obtain ⟨v, w⟩ := x
  cases v <;> cases w <;> exact ⟨rfl, rfl⟩

/-- C31, precipitation: conversion agrees with the definition of the units. -/
theorem C31_precipitation_value (v : Rat) (h0 : 0 ≤ v) (hv : v ≤ 2 ^ 33) (u w : PrecipitationUnit) :
    ∃ r, (⟨some v, u⟩ : Precipitation).toUnit w = some r ∧ Within r (v * (mmPer u / mmPer w)) := by
  have self : ∀ a : Rat, a ≠ 0 → Close v (v * (a / a)) := by
    intro a ha
    rw [div_self ha, mul_one]
    exact close_self h0
  cases u <;> cases w
  all_goals refine ⟨_, rfl, ?_⟩
  all_goals simp only [mmPer]
  all_goals refine within_of_close (by positivity) ?_
  all_goals first
    | (with_reducible refine self _ ?_); norm_num
    | (with_reducible refine close_mul h0 hv ?_ ?_ ?_ ?_) <;> norm_num [abs_le]
    | (with_reducible refine close_div h0 hv ?_ ?_ ?_ ?_) <;> norm_num [abs_le]

/-- C31, precipitation: conversion to another unit and back leads to the value within 5 parts in 100000. -/
theorem C31_precipitation_back (v : Rat) (h0 : 0 ≤ v) (hv : v ≤ 2 ^ 24) (u w : PrecipitationUnit) :
    ∃ r q, (⟨some v, u⟩ : Precipitation).toUnit w = some r ∧ (⟨some r, w⟩ : Precipitation).toUnit u = some q ∧
      |q - v| ≤ v * (5 / 100000) + 1 / 2 ^ 40 := by
  have bound : ∀ a b : PrecipitationUnit, 0 < mmPer a / mmPer b ∧ mmPer a / mmPer b ≤ 100 := by
    intro a b
    cases a <;> cases b <;> norm_num [mmPer]
  have inv : mmPer u / mmPer w * (mmPer w / mmPer u) = 1 := by
    cases u <;> cases w <;> norm_num [mmPer]
  obtain ⟨r, h1, h2⟩ := C31_precipitation_value v h0 (le_trans hv (by norm_num)) u w
  have hr0 : 0 ≤ r := by
    cases u <;> cases w
    all_goals
      simp only [Precipitation.toUnit, Option.some.injEq] at h1
      subst h1
      first
      | with_reducible exact h0
      | (with_reducible refine mulLit_nonneg h0 ?_); norm_num
      | (with_reducible refine divLit_nonneg h0 ?_); norm_num
  have hr1 : r ≤ 2 ^ 33 := by
    unfold Within at h2
    have h3 : v * (mmPer u / mmPer w) ≤ 2 ^ 24 * 100 :=
      mul_le_mul hv (bound u w).2 (bound u w).1.le (by norm_num)
    have := (abs_le.mp h2).2
    generalize v * (mmPer u / mmPer w) = z at *
    norm_num at *
    linarith
  obtain ⟨q, h3, h4⟩ := C31_precipitation_value r hr0 hr1 w u
  exact ⟨r, q, h1, h3, within_back h0 (bound u w).1 (bound w u).1
    (le_trans (bound w u).2 (by norm_num)) inv h2 h4⟩

/-- C31, precipitation: conversion preserves order. -/
theorem C31_precipitation_order (v w : Rat) (h : v ≤ w) (u t : PrecipitationUnit) (x y : Rat)
    (hx : (⟨some v, u⟩ : Precipitation).toUnit t = some x)
    (hy : (⟨some w, u⟩ : Precipitation).toUnit t = some y) : x ≤ y := by
  cases u <;> cases t
  all_goals
    simp only [Precipitation.toUnit, Option.some.injEq] at hx hy
    subst hx hy
    first
    | with_reducible exact h
    | (with_reducible refine mulLit_mono h ?_); norm_num
    | (with_reducible refine divLit_mono h ?_); norm_num

/-! ### Wave height -/

/-- C31, wave height: a value in either unit is available exactly if reported; feet agree with the
definition of the foot and with metres. -/
theorem C31_wave_height (x : WaveHeight) (u : WaveHeightUnit)
    (h : ∀ n, x.whValue = some n → n < 2 ^ 32) :
    (x.toUnit u).isSome = x.whValue.isSome ∧ x.toUnit .METERS = x.waveHeight ∧
      ∀ v, x.waveHeight = some v → ∃ r, x.toUnit .FEET = some r ∧ Within r (v * (10000 / 3048)) := by
  obtain ⟨t, v⟩ := x
  cases v with
  | none =>
    refine ⟨by cases u <;> rfl, rfl, ?_⟩
    rintro v ⟨⟩
  | some n =>
    refine ⟨by cases u <;> rfl, rfl, ?_⟩
    rintro v hv
    obtain rfl := Option.some.inj hv
    have hn : (n : Rat) ≤ 2 ^ 32 := by exact_mod_cast (h n rfl).le
    have h0 : (0 : Rat) ≤ n := by positivity
    have hm := mulLit_near (v := n) (k := 1 / 10) h0 (le_trans hn (by norm_num)) (by norm_num) (by norm_num)
    have hp := mulLit_nonneg (v := n) (k := 1 / 10) h0 (by norm_num)
    refine ⟨_, rfl, ?_⟩
    change Within (Speed.divLit (Speed.mulLit n (1 / 10)) (3048 / 10000))
      (Speed.mulLit n (1 / 10) * (10000 / 3048))
    generalize Speed.mulLit (n : Rat) (1 / 10) = z at *
    refine within_of_close (by positivity) (close_div hp ?_ (by norm_num) (by norm_num) (by norm_num)
      (by norm_num [abs_le]))
    have := (abs_le.mp hm).2
    generalize (n : Rat) = q at *
    norm_num at *
    linarith

/-- C31, wave height: conversion preserves order. -/
theorem C31_wave_height_order (s t : WaveHeightType) (v w : Nat) (h : v ≤ w) (u : WaveHeightUnit)
    (x y : Rat) (hx : (⟨s, some v⟩ : WaveHeight).toUnit u = some x)
    (hy : (⟨t, some w⟩ : WaveHeight).toUnit u = some y) : x ≤ y := by
  have h1 : Speed.mulLit (v : Rat) (1 / 10) ≤ Speed.mulLit (w : Rat) (1 / 10) :=
    mulLit_mono (by exact_mod_cast h) (by norm_num)
  cases u
  · obtain rfl := Option.some.inj hx
    obtain rfl := Option.some.inj hy
    exact h1
  · obtain rfl := Option.some.inj hx
    obtain rfl := Option.some.inj hy
    exact divLit_mono h1 (by norm_num)

/-! ### Temperature -/

/-- C31, temperature: a value is available exactly if reported; Celsius gives the stored value. -/
theorem C31_temperature_own (x : Temperature) (u : TemperatureUnit) :
    (x.toUnit u).isSome = x.tempValue.isSome ∧ x.toUnit .C = x.temperature := by
  obtain ⟨v, f, p⟩ := x
  cases v <;> cases u <;> exact ⟨rfl, rfl⟩

/-- C31, temperature: Fahrenheit agrees with the definition of the scale. -/
theorem C31_temperature_value (x : Temperature) (v : Rat) (h : x.temperature = some v)
    (hv : |v| ≤ 2 ^ 32) :
    ∃ r, x.toUnit .F = some r ∧ |r - (v * 9 / 5 + 32)| ≤ (|v| + 20) / 4000000 := by
  refine ⟨f32 (f64 (f64 (v * f64 (18 / 10)) + 32)), by rw [Temperature.toUnit, h], ?_⟩
  have hk := f64_rel (x := 18 / 10) (by norm_num)
  rw [show |(18 / 10 : Rat)| = 18 / 10 by norm_num] at hk
  generalize f64 (18 / 10) = k at *
  have hp : |v * k - v * 9 / 5| ≤ |v| / 2 ^ 50 := by
    rw [show v * k - v * 9 / 5 = v * (k - 18 / 10) by ring, abs_mul,
      show |v| / 2 ^ 50 = |v| * (1 / 2 ^ 50) by ring]
    exact mul_le_mul_of_nonneg_left (le_trans hk (by norm_num)) (abs_nonneg v)
  have hvn := abs_nonneg v
  have hpv : |v * 9 / 5| = |v| * 9 / 5 := by
    rw [show v * 9 / 5 = v * (9 / 5) by ring, abs_mul, show |(9 / 5 : Rat)| = 9 / 5 by norm_num]; ring
  generalize v * k = p at *
  generalize v * 9 / 5 = q at *
  generalize |v| = n at *
  have hpa : |p| ≤ 2 * n := by
    have := abs_add_le (p - q) q
    rw [show p - q + q = p by ring] at this
    norm_num at *
    linarith
  have h1 := f64_rel (x := p) (le_trans hpa (by norm_num at *; linarith))
  generalize f64 p = a at *
  have ha : |a + 32| ≤ 3 * n + 33 := by
    have e1 := abs_add_le (a - p) (p + 32)
    have e2 := abs_add_le p 32
    rw [show a - p + (p + 32) = a + 32 by ring] at e1
    norm_num at *
    linarith
  have h2 := f64_rel (x := a + 32) (le_trans ha (by norm_num at *; linarith))
  generalize f64 (a + 32) = b at *
  have hb : |b - (q + 32)| ≤ (n + 20) / 2 ^ 48 := by
    have e1 := abs_add_le (b - (a + 32)) (a - p)
    have e2 := abs_add_le (b - (a + 32) + (a - p)) (p - q)
    rw [show b - (a + 32) + (a - p) + (p - q) = b - (q + 32) by ring] at e2
    norm_num at *
    linarith
  have hb' : |b| ≤ n * 9 / 5 + 32 + (n + 20) / 2 ^ 48 := by
    have e1 := abs_add_le (b - (q + 32)) (q + 32)
    have e2 := abs_add_le q 32
    rw [show b - (q + 32) + (q + 32) = b by ring] at e1
    norm_num at *
    linarith
  have h3 := f32_rel (x := b) (le_trans hb' (by norm_num at *; linarith))
  have e1 := abs_add_le (f32 b - b) (b - (q + 32))
  rw [show f32 b - b + (b - (q + 32)) = f32 b - (q + 32) by ring] at e1
  norm_num at *
  linarith

/-- C31, temperature: conversion to Fahrenheit preserves order. -/
theorem C31_temperature_order (x y : Temperature) (v w a b : Rat)
    (hx : x.toUnit .C = some v) (hy : y.toUnit .C = some w) (h : v ≤ w)
    (ha : x.toUnit .F = some a) (hb : y.toUnit .F = some b) : a ≤ b := by
  unfold Temperature.toUnit at *
  cases hx' : x.temperature <;> simp only [hx', reduceCtorEq, Option.some.injEq] at hx ha
  cases hy' : y.temperature <;> simp only [hy', reduceCtorEq, Option.some.injEq] at hy hb
  subst hx hy ha hb
  exact FloatSem.f32_mono _ _ (FloatSem.f64_mono _ _ (by
    have := FloatSem.f64_mono _ _ (mul_le_mul_of_nonneg_right h
      (f64_nonneg (show (0 : Rat) ≤ 18 / 10 by norm_num)))
    linarith))

/-! ### There and back -/

/-- C31, speed: the converted value converted back by the definition of the units is within 2 parts
in 100000 of the stored value. -/
theorem C31_speed_back (v : Nat) (hv : v < 2 ^ 32) (u w : SpeedUnit) :
    ∃ r, (⟨some v, u⟩ : Speed).toUnit w = some r ∧
      |r * (mpsPer w / mpsPer u) - v| ≤ (v : Rat) * (2 / 100000) + 1 / 2 ^ 40 := by
  obtain ⟨r, h1, h2⟩ := C31_speed_value v hv u w
  refine ⟨r, h1, ?_⟩
  unfold Within at h2
  have e : mpsPer u / mpsPer w * (mpsPer w / mpsPer u) = 1 := by
    cases u <;> cases w <;> norm_num [mpsPer]
  have hp : 0 < mpsPer w / mpsPer u ∧ mpsPer w / mpsPer u ≤ 100 := by
    cases u <;> cases w <;> norm_num [mpsPer]
  generalize mpsPer u / mpsPer w = a at *
  generalize mpsPer w / mpsPer u = b at *
  have ev : (v : Rat) = v * a * b := by rw [mul_assoc, e, mul_one]
  rw [show r * b - v = (r - v * a) * b by rw [sub_mul, ← ev], abs_mul, abs_of_pos hp.1]
  calc |r - v * a| * b ≤ (v * a * (2 / 100000) + 1 / 2 ^ 60) * b :=
        mul_le_mul_of_nonneg_right h2 hp.1.le
    _ = v * a * b * (2 / 100000) + b / 2 ^ 60 := by ring
    _ ≤ v * (2 / 100000) + 1 / 2 ^ 40 := by rw [← ev]; have := hp.2; norm_num at *; linarith

/-- C31, distance: the converted value converted back by the definition of the units is within 2
parts in 100000 of the stored value. -/
theorem C31_distance_back (m : Modifier) (v : Nat) (hv : v < 2 ^ 32) (u w : DistanceUnit) :
    ∃ r, (⟨m, some v, u⟩ : Distance).toUnit w = some r ∧
      |r * (metersPer w / metersPer u) - storedAmount v u| ≤
        storedAmount v u * (2 / 100000) + 1 / 2 ^ 40 := by
  obtain ⟨r, h1, h2⟩ := C31_distance_value m v hv u w
  refine ⟨r, h1, ?_⟩
  unfold Within at h2
  have e : metersPer u / metersPer w * (metersPer w / metersPer u) = 1 := by
    cases u <;> cases w <;> norm_num [metersPer]
  have hp : 0 < metersPer w / metersPer u ∧ metersPer w / metersPer u ≤ 10000 := by
    cases u <;> cases w <;> norm_num [metersPer]
  generalize metersPer u / metersPer w = a at *
  generalize metersPer w / metersPer u = b at *
  generalize storedAmount v u = q at *
  have ev : q = q * a * b := by rw [mul_assoc, e, mul_one]
  rw [show r * b - q = (r - q * a) * b by rw [sub_mul, ← ev], abs_mul, abs_of_pos hp.1]
  calc |r - q * a| * b ≤ (q * a * (2 / 100000) + 1 / 2 ^ 60) * b :=
        mul_le_mul_of_nonneg_right h2 hp.1.le
    _ = q * a * b * (2 / 100000) + b / 2 ^ 60 := by ring
    _ ≤ q * (2 / 100000) + 1 / 2 ^ 40 := by rw [← ev]; have := hp.2; norm_num at *; linarith

end Metaf.Props

/-! ### Examples -/

namespace Metaf.Props

attribute [local instance] exactFloat

/-- 10 knots are 18.52 km/h; 29.92 inches of mercury are about 1013.2 hPa; 32 F is 0 C. -/
example : (⟨some 10, .KNOTS⟩ : Speed).toUnit .KILOMETERS_PER_HOUR = some (1852 / 100) ∧
    (⟨some (2992 / 100), .INCHES_HG⟩ : Pressure).toUnit .HECTOPASCAL = some (2992 / 100 * 338639 / 10000) ∧
    (⟨.NONE, some 5000, .METERS⟩ : Distance).toUnit .FEET = some (5000 * 10000 / 3048) ∧
    (⟨some 0, false, false⟩ : Temperature).toUnit .F = some 32 ∧
    (⟨none, .KNOTS⟩ : Speed).toUnit .KNOTS = none := by
  decide +kernel

end Metaf.Props
