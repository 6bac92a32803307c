import Verif.Proofs.Perceived
import Verif.Props.SummaryTotal

/-!
What is assumed of `std::pow`, and the wind chill and the relative humidity on real numbers.
-/

namespace Metaf.Props

set_option linter.unusedSectionVars false

/-! ### Powers of real numbers -/

theorem rpow_le_mul {x y a : ℝ} (hx : 0 ≤ x) (hy : 0 ≤ y) {e : ℝ} (he : 0 ≤ e) (ha : 0 ≤ a) (ha' : a ≤ 1)
    (h : x ≤ y * (1 + e)) : x ^ a ≤ y ^ a * (1 + a * e) := by
  have h1 : x ^ a ≤ (y * (1 + e)) ^ a := Real.rpow_le_rpow hx h ha
  rw [Real.mul_rpow hy (by linarith)] at h1
  exact le_trans h1 (mul_le_mul_of_nonneg_left (rpow_one_add_le_one_add_mul_self (by linarith) ha ha')
    (Real.rpow_nonneg hy _))

theorem rpow_ten_le {x y e : ℝ} (h : x ≤ y + e) (he : 0 ≤ e) (he' : e ≤ 1) :
    (10 : ℝ) ^ x ≤ 10 ^ y * (1 + 9 * e) := by
  have h1 : (10 : ℝ) ^ x ≤ 10 ^ (y + e) := Real.rpow_le_rpow_of_exponent_le (by norm_num) h
  rw [Real.rpow_add (by norm_num)] at h1
  have h2 := rpow_one_add_le_one_add_mul_self (s := (9 : ℝ)) (by norm_num) he he'
  norm_num at h2
  refine le_trans h1 (mul_le_mul_of_nonneg_left (by linarith) (Real.rpow_nonneg (by norm_num) _))

/-! ### What is assumed of `std::pow` -/

variable [FloatIeee]

/-- What is assumed of `std::pow`: for a base from 1 to 4000 and an exponent from −6 to 6 the result differs from
the power by at most one part in 2 to the power 40. -/
def PowNear : Prop := ∀ x y : Rat, 1 ≤ x → x ≤ 4000 → -6 ≤ y → y ≤ 6 →
  |((FloatSem.pow x y : Rat) : ℝ) - (x : ℝ) ^ (y : ℝ)| ≤ (x : ℝ) ^ (y : ℝ) / 2 ^ 40

theorem PowNear.ten (hp : PowNear) {y : Rat} (h1 : -6 ≤ y) (h2 : y ≤ 6) :
    (10 : ℝ) ^ (y : ℝ) * (1 - 1 / 2 ^ 40) ≤ ((FloatSem.pow 10 y : Rat) : ℝ) ∧
      ((FloatSem.pow 10 y : Rat) : ℝ) ≤ (10 : ℝ) ^ (y : ℝ) * (1 + 1 / 2 ^ 40) := by
  have h := abs_le.mp (hp 10 y (by norm_num) (by norm_num) h1 h2)
  push_cast at h
  constructor <;> linarith [h.1, h.2]

/-- The assumptions made for C28 follow. -/
theorem PowNear.powTen (hp : PowNear) : PowTen where
  grows := by
    intro x y hx hy hxy
    have a := (hp.ten hx (by linarith)).2
    have b := (hp.ten (by linarith) hy).1
    have c : (10 : ℝ) ^ ((x : ℝ) + 1 / 1000) ≤ (10 : ℝ) ^ (y : ℝ) :=
      Real.rpow_le_rpow_of_exponent_le (by norm_num) (by
        have := Rat.cast_le (K := ℝ) |>.mpr hxy
        push_cast at this
        exact this)
    rw [Real.rpow_add (by norm_num)] at c
    have d : (1 + 11 / 10000 : ℝ) ≤ (10 : ℝ) ^ (1 / 1000 : ℝ) := by
      have e : (1 + 11 / 10000 : ℝ) ^ (1000 : ℝ) ≤ 10 := by
        rw [show (1000 : ℝ) = ((1000 : ℕ) : ℝ) by norm_num, Real.rpow_natCast,
          show 1000 = 10 * 10 * 10 by norm_num, pow_mul, pow_mul]
        have p1 : (1 + 11 / 10000 : ℝ) ^ 10 ≤ 1.0112 := by norm_num
        have p2 : ((1 + 11 / 10000 : ℝ) ^ 10) ^ 10 ≤ 1.0112 ^ 10 := pow_le_pow_left₀ (by positivity) p1 10
        have p3 : (1.0112 : ℝ) ^ 10 ≤ 1.12 := by norm_num
        have p4 := pow_le_pow_left₀ (by positivity) (le_trans p2 p3) 10
        exact le_trans p4 (by norm_num)
      have f := Real.rpow_le_rpow (by positivity) e (by norm_num : (0 : ℝ) ≤ 1 / 1000)
      rw [← Real.rpow_mul (by norm_num), show (1000 * (1 / 1000) : ℝ) = 1 by norm_num, Real.rpow_one] at f
      exact f
    have hpos : 0 < (10 : ℝ) ^ (x : ℝ) := Real.rpow_pos_of_pos (by norm_num) _
    have goal : ((FloatSem.pow 10 x : Rat) : ℝ) * (1 + 1 / 1000) ≤ ((FloatSem.pow 10 y : Rat) : ℝ) := by
      generalize ((FloatSem.pow 10 x : Rat) : ℝ) = p at *
      generalize ((FloatSem.pow 10 y : Rat) : ℝ) = q at *
      have g1 : (10 : ℝ) ^ (x : ℝ) * (1 + 11 / 10000) ≤ (10 : ℝ) ^ (y : ℝ) :=
        le_trans (mul_le_mul_of_nonneg_left d hpos.le) c
      generalize (10 : ℝ) ^ (x : ℝ) = u at *
      generalize (10 : ℝ) ^ (y : ℝ) = v at *
      norm_num at *
      linarith
    rw [← Rat.cast_le (K := ℝ)]
    push_cast
    exact goal
  low := by
    intro x h1 h2
    have a := (hp.ten h1 h2).1
    have c : (10 : ℝ) ^ (-6 : ℝ) ≤ (10 : ℝ) ^ (x : ℝ) :=
      Real.rpow_le_rpow_of_exponent_le (by norm_num) (by exact_mod_cast h1)
    have e : (10 : ℝ) ^ (-6 : ℝ) = 1 / 10 ^ 6 := by
      rw [Real.rpow_neg (by norm_num), show (6 : ℝ) = ((6 : ℕ) : ℝ) by norm_num, Real.rpow_natCast]
      norm_num
    rw [e] at c
    have goal : (1 / 10 ^ 8 : ℝ) ≤ ((FloatSem.pow 10 x : Rat) : ℝ) := by
      generalize ((FloatSem.pow 10 x : Rat) : ℝ) = p at *
      norm_num at *
      linarith
    rw [← Rat.cast_le (K := ℝ)]
    push_cast
    exact goal
  high := by
    intro x h1 h2
    have a := (hp.ten h1 h2).2
    have c : (10 : ℝ) ^ (x : ℝ) ≤ (10 : ℝ) ^ (6 : ℝ) :=
      Real.rpow_le_rpow_of_exponent_le (by norm_num) (by exact_mod_cast h2)
    have e : (10 : ℝ) ^ (6 : ℝ) = 10 ^ 6 := by
      rw [show (6 : ℝ) = ((6 : ℕ) : ℝ) by norm_num, Real.rpow_natCast]
    rw [e] at c
    have goal : ((FloatSem.pow 10 x : Rat) : ℝ) ≤ 10 ^ 8 := by
      generalize ((FloatSem.pow 10 x : Rat) : ℝ) = p at *
      norm_num at *
      linarith
    exact_mod_cast goal

/-! ### The exponent 0.16 -/

theorem sixteen_near : |f64 (16 / 100) - 16 / 100| ≤ 1 / 10 ^ 16 := by
  exact le_trans (f64_near (x := 16 / 100) (16 / 100) (near_self _) (by norm_num [abs_le]) (by norm_num)) (by norm_num)

/-- The power computed for the wind chill. -/
theorem PowNear.sixteen (hp : PowNear) {v : Rat} (h1 : 1 ≤ v) (h2 : v ≤ 4000) :
    |((FloatSem.pow v (f64 (16 / 100)) : Rat) : ℝ) - (v : ℝ) ^ (0.16 : ℝ)| ≤ (v : ℝ) ^ (0.16 : ℝ) / 10 ^ 11 := by
  have hs := abs_le.mp sixteen_near
  have h := abs_le.mp (hp v (f64 (16 / 100)) h1 h2 (by norm_num at *; linarith) (by norm_num at *; linarith))
  have hv1 : (1 : ℝ) ≤ (v : ℝ) := by exact_mod_cast h1
  have hv2 : (v : ℝ) ≤ 4000 := by exact_mod_cast h2
  have hv0 : (0 : ℝ) < v := by linarith
  have hs1 : ((f64 (16 / 100) : Rat) : ℝ) ≤ 0.16 + 1 / 10 ^ 16 := by
    have : f64 (16 / 100) ≤ 16 / 100 + 1 / 10 ^ 16 := by linarith [hs.2]
    have t : ((f64 (16 / 100) : Rat) : ℝ) ≤ ((16 / 100 + 1 / 10 ^ 16 : Rat) : ℝ) := by exact_mod_cast this
    refine le_trans t (le_of_eq ?_)
    push_cast
    norm_num
  have hs2 : (0.16 : ℝ) - 1 / 10 ^ 16 ≤ ((f64 (16 / 100) : Rat) : ℝ) := by
    have : 16 / 100 - 1 / 10 ^ 16 ≤ f64 (16 / 100) := by linarith [hs.1]
    have t : ((16 / 100 - 1 / 10 ^ 16 : Rat) : ℝ) ≤ ((f64 (16 / 100) : Rat) : ℝ) := by exact_mod_cast this
    refine le_trans (le_of_eq ?_) t
    push_cast
    norm_num
  generalize ((f64 (16 / 100) : Rat) : ℝ) = s at *
  generalize ((FloatSem.pow v (f64 (16 / 100)) : Rat) : ℝ) = p at *
  have small : (v : ℝ) ^ (1 / 10 ^ 16 : ℝ) ≤ 1 + 1 / 10 ^ 12 := by
    have a : (v : ℝ) ^ (1 / 10 ^ 16 : ℝ) ≤ (4000 : ℝ) ^ (1 / 10 ^ 16 : ℝ) :=
      Real.rpow_le_rpow hv0.le hv2 (by positivity)
    have b := rpow_one_add_le_one_add_mul_self (s := (3999 : ℝ)) (by norm_num) (p := 1 / 10 ^ 16) (by positivity)
      (by norm_num)
    rw [show (1 + 3999 : ℝ) = 4000 by norm_num] at b
    refine le_trans a (le_trans b ?_)
    norm_num
  have up : (v : ℝ) ^ s ≤ (v : ℝ) ^ (0.16 : ℝ) * (1 + 1 / 10 ^ 12) := by
    have a : (v : ℝ) ^ s ≤ (v : ℝ) ^ ((0.16 : ℝ) + 1 / 10 ^ 16) := Real.rpow_le_rpow_of_exponent_le hv1 hs1
    rw [Real.rpow_add hv0] at a
    exact le_trans a (mul_le_mul_of_nonneg_left small (Real.rpow_nonneg hv0.le _))
  have lo : (v : ℝ) ^ (0.16 : ℝ) ≤ (v : ℝ) ^ s * (1 + 1 / 10 ^ 12) := by
    have a : (v : ℝ) ^ (0.16 : ℝ) ≤ (v : ℝ) ^ (s + 1 / 10 ^ 16) :=
      Real.rpow_le_rpow_of_exponent_le hv1 (by linarith)
    rw [Real.rpow_add hv0] at a
    exact le_trans a (mul_le_mul_of_nonneg_left small (Real.rpow_nonneg hv0.le _))
  have h0 : 0 < (v : ℝ) ^ s := Real.rpow_pos_of_pos hv0 _
  have h0' : 0 < (v : ℝ) ^ (0.16 : ℝ) := Real.rpow_pos_of_pos hv0 _
  generalize (v : ℝ) ^ s = a at *
  generalize (v : ℝ) ^ (0.16 : ℝ) = b at *
  rw [abs_le]
  norm_num at *
  constructor <;> linarith

theorem rpow_sixteen_le {v : ℝ} (h1 : 1 ≤ v) (h2 : v ≤ 4000) : 1 ≤ v ^ (0.16 : ℝ) ∧ v ^ (0.16 : ℝ) ≤ 4 := by
  constructor
  · exact Real.one_le_rpow h1 (by norm_num)
  · have a : v ^ (0.16 : ℝ) ≤ (4 ^ (25 / 4 : ℝ)) ^ (0.16 : ℝ) := by
      refine Real.rpow_le_rpow (by linarith) (le_trans h2 ?_) (by norm_num)
      have : (4 : ℝ) ^ (6 : ℝ) ≤ 4 ^ (25 / 4 : ℝ) := Real.rpow_le_rpow_of_exponent_le (by norm_num) (by norm_num)
      rw [show (6 : ℝ) = ((6 : ℕ) : ℝ) by norm_num, Real.rpow_natCast] at this
      refine le_trans ?_ this
      norm_num
    rw [← Real.rpow_mul (by norm_num), show (25 / 4 * 0.16 : ℝ) = 1 by norm_num, Real.rpow_one] at a
    exact a

/-- The assumption made for C92 follows. -/
theorem PowNear.powSmall (hp : PowNear) : PowSmall := by
  intro v h1 h2
  have a := abs_le.mp (hp.sixteen h1 h2)
  have b := rpow_sixteen_le (v := (v : ℝ)) (by exact_mod_cast h1) (by exact_mod_cast h2)
  have goal : |((FloatSem.pow v (f64 (16 / 100)) : Rat) : ℝ)| ≤ 4000 := by
    generalize ((FloatSem.pow v (f64 (16 / 100)) : Rat) : ℝ) = p at *
    generalize (v : ℝ) ^ (0.16 : ℝ) = q at *
    rw [abs_le]
    norm_num at *
    constructor <;> linarith
  exact_mod_cast goal

end Metaf.Props
