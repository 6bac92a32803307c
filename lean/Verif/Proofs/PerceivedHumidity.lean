import Verif.Proofs.PerceivedWind

/-!
The relative humidity of the code is near the published formula.
-/

namespace Metaf.Props

open Metaf.Spec (windChillOf saturation humidityOf)

set_option linter.unusedSectionVars false

variable [FloatIeee]

/-- The exponent computed is near the exponent of the formula. -/
theorem exponent_value {n : Int} (hn : |n| ≤ 1000) :
    |((exponent (celsius n) : Rat) : ℝ) - 7.5 * ((n : ℝ) / 10) / (237.7 + (n : ℝ) / 10)| ≤ 2 / 10 ^ 6 := by
  have a := exponent_near (celsius_bound hn)
  have b := celsius_near hn
  have cb := celsius_bound hn
  generalize exponent (celsius n) = z at *
  generalize celsius n = x at *
  have hnb : |(n : Rat) / 10| ≤ 100 := by
    have : |(n : Rat)| ≤ 1000 := by exact_mod_cast hn
    rw [abs_div]; norm_num; linarith
  have key : |z - 75 / 10 * ((n : Rat) / 10) / (2377 / 10 + (n : Rat) / 10)| ≤ 2 / 10 ^ 6 := by
    generalize (n : Rat) / 10 = y at *
    have hx := abs_le.mp cb
    have hy := abs_le.mp hnb
    have p1 : 0 < 2377 / 10 + x := by linarith
    have p2 : 0 < 2377 / 10 + y := by linarith
    have e : 75 / 10 * x / (2377 / 10 + x) - 75 / 10 * y / (2377 / 10 + y) =
        (x - y) * (75 / 10 * (2377 / 10) / ((2377 / 10 + x) * (2377 / 10 + y))) := by
      rw [div_sub_div _ _ p1.ne' p2.ne', ← mul_div_assoc]
      congr 1
      ring
    have g : 75 / 10 * (2377 / 10) / ((2377 / 10 + x) * (2377 / 10 + y)) ≤ 1 / 10 := by
      rw [div_le_div_iff₀ (by positivity) (by norm_num)]
      nlinarith
    have g0 : 0 ≤ 75 / 10 * (2377 / 10) / ((2377 / 10 + x) * (2377 / 10 + y)) := by positivity
    have d : |75 / 10 * x / (2377 / 10 + x) - 75 / 10 * y / (2377 / 10 + y)| ≤ 1 / 100000 * (1 / 10) := by
      rw [e, abs_mul, abs_of_nonneg g0]
      exact mul_le_mul b g g0 (by norm_num)
    have t := abs_sub_le z (75 / 10 * x / (2377 / 10 + x)) (75 / 10 * y / (2377 / 10 + y))
    norm_num at *
    linarith
  have := Rat.cast_le (K := ℝ) |>.mpr key
  push_cast at this
  norm_num at this ⊢
  exact this

/-- The vapour pressure computed is near the formula. -/
theorem vapour_value (hp : PowNear) {n : Int} (hn : |n| ≤ 1000) :
    |((Temperature.vapourPressure (celsius n) : Rat) : ℝ) - saturation ((n : ℝ) / 10)| ≤
      saturation ((n : ℝ) / 10) / 40000 := by
  have a := abs_le.mp (exponent_value hn)
  obtain ⟨e1, e2⟩ := exponent_bound (celsius_bound hn)
  have b := hp.ten e1 e2
  have lo := hp.powTen.low _ e1 e2
  have hi := hp.powTen.high _ e1 e2
  rw [vapour_eq]
  unfold saturation
  have k := abs_le.mp (f64_rel (x := 611 / 100) (by norm_num [abs_le]))
  have f : |f64 (f64 (611 / 100) * FloatSem.pow 10 (exponent (celsius n))) -
      611 / 100 * FloatSem.pow 10 (exponent (celsius n))| ≤
        611 / 100 * FloatSem.pow 10 (exponent (celsius n)) / 2 ^ 50 := by
    generalize FloatSem.pow 10 (exponent (celsius n)) = w at *
    have w0 : 0 < w := lt_of_lt_of_le (by norm_num) lo
    rw [show |(611 / 100 : Rat)| = 611 / 100 by norm_num [abs_of_pos]] at k
    generalize f64 (611 / 100) = c at *
    have c1 : c ≤ 611 / 100 * (1 + 1 / 2 ^ 52) := by norm_num at *; linarith
    have c2 : 611 / 100 * (1 - 1 / 2 ^ 52) ≤ c := by norm_num at *; linarith
    have m1 : c * w ≤ 611 / 100 * (1 + 1 / 2 ^ 52) * w := mul_le_mul_of_nonneg_right c1 w0.le
    have m2 : 611 / 100 * (1 - 1 / 2 ^ 52) * w ≤ c * w := mul_le_mul_of_nonneg_right c2 w0.le
    have hpos : 0 < c * w := lt_of_lt_of_le (by norm_num; positivity) m2
    have g := abs_le.mp (f64_rel (x := c * w) (by
      rw [abs_of_pos hpos]
      norm_num at *
      linarith))
    rw [abs_of_pos hpos] at g
    generalize f64 (c * w) = z at *
    generalize c * w = y at *
    rw [abs_le]
    norm_num at *
    constructor <;> linarith
  have f' : |((f64 (f64 (611 / 100) * FloatSem.pow 10 (exponent (celsius n))) : Rat) : ℝ) -
      6.11 * ((FloatSem.pow 10 (exponent (celsius n)) : Rat) : ℝ)| ≤
        6.11 * ((FloatSem.pow 10 (exponent (celsius n)) : Rat) : ℝ) / 2 ^ 50 := by
    have := Rat.cast_le (K := ℝ) |>.mpr f
    push_cast at this
    norm_num at this ⊢
    exact this
  have u1 : (10 : ℝ) ^ ((exponent (celsius n) : Rat) : ℝ) ≤
      10 ^ (7.5 * ((n : ℝ) / 10) / (237.7 + (n : ℝ) / 10)) * (1 + 9 * (2 / 10 ^ 6)) :=
    rpow_ten_le (by linarith [a.2]) (by norm_num) (by norm_num)
  have u2 : (10 : ℝ) ^ (7.5 * ((n : ℝ) / 10) / (237.7 + (n : ℝ) / 10)) ≤
      10 ^ ((exponent (celsius n) : Rat) : ℝ) * (1 + 9 * (2 / 10 ^ 6)) :=
    rpow_ten_le (by linarith [a.1]) (by norm_num) (by norm_num)
  have pos1 : 0 < (10 : ℝ) ^ ((exponent (celsius n) : Rat) : ℝ) := Real.rpow_pos_of_pos (by norm_num) _
  have pos2 : 0 < (10 : ℝ) ^ (7.5 * ((n : ℝ) / 10) / (237.7 + (n : ℝ) / 10)) :=
    Real.rpow_pos_of_pos (by norm_num) _
  clear a e1 e2 lo hi k f
  generalize ((f64 (f64 (611 / 100) * FloatSem.pow 10 (exponent (celsius n))) : Rat) : ℝ) = z at *
  generalize ((FloatSem.pow 10 (exponent (celsius n)) : Rat) : ℝ) = w at *
  generalize (10 : ℝ) ^ ((exponent (celsius n) : Rat) : ℝ) = x at *
  generalize (10 : ℝ) ^ (7.5 * ((n : ℝ) / 10) / (237.7 + (n : ℝ) / 10)) = y at *
  have f1 := abs_le.mp f'
  rw [abs_le]
  norm_num at *
  constructor <;> linarith

theorem saturation_pos (t : ℝ) : 0 < saturation t := by
  unfold saturation
  have : (0 : ℝ) < 10 ^ (7.5 * t / (237.7 + t)) := Real.rpow_pos_of_pos (by norm_num) _
  positivity

theorem ratio_near {d t x y : ℝ} (hx : 0 < x) (hy : 0 < y) (h1 : |d - x| ≤ x / 40000) (h2 : |t - y| ≤ y / 40000) :
    |d / t - x / y| ≤ x / y * (6 / 10 ^ 5) := by
  have a := abs_le.mp h1
  have b := abs_le.mp h2
  have t0 : 0 < t := by linarith
  have r0 : 0 < x / y := by positivity
  have e1 : d / t ≤ x / y * (1 + 6 / 10 ^ 5) := by
    rw [div_le_iff₀ t0]
    have : x / y * (1 + 6 / 10 ^ 5) * (y - y / 40000) ≤ x / y * (1 + 6 / 10 ^ 5) * t :=
      mul_le_mul_of_nonneg_left (by linarith) (by positivity)
    have e : x / y * (1 + 6 / 10 ^ 5) * (y - y / 40000) = x * ((1 + 6 / 10 ^ 5) * (1 - 1 / 40000)) := by
      field_simp
    rw [e] at this
    refine le_trans ?_ this
    norm_num at *
    linarith
  have e2 : x / y * (1 - 6 / 10 ^ 5) ≤ d / t := by
    rw [le_div_iff₀ t0]
    have : x / y * (1 - 6 / 10 ^ 5) * t ≤ x / y * (1 - 6 / 10 ^ 5) * (y + y / 40000) :=
      mul_le_mul_of_nonneg_left (by linarith) (by norm_num; positivity)
    have e : x / y * (1 - 6 / 10 ^ 5) * (y + y / 40000) = x * ((1 - 6 / 10 ^ 5) * (1 + 1 / 40000)) := by
      field_simp
    rw [e] at this
    refine le_trans this ?_
    norm_num at *
    linarith
  rw [abs_le]
  constructor <;> linarith

/-- The humidity computed is near the formula. -/
theorem humidity_value (hp : PowNear) {n m : Int} (hn : |n| ≤ 1000) (hm : |m| ≤ 1000) (h : m ≤ n) :
    |((humidity (Temperature.vapourPressure (celsius m)) (Temperature.vapourPressure (celsius n)) : Rat) : ℝ) -
      humidityOf ((n : ℝ) / 10) ((m : ℝ) / 10)| ≤ 1 / 100 := by
  have b1 := vapour_bounds hp.powTen (celsius_bound hn)
  have b2 := vapour_bounds hp.powTen (celsius_bound hm)
  have hle : Temperature.vapourPressure (celsius m) ≤ Temperature.vapourPressure (celsius n) :=
    vapour_le hp.powTen hm hn h
  have c := humidity_near b2.1 b1.1 b2.2 b1.2 hle
  have v1 := vapour_value hp hn
  have v2 := vapour_value hp hm
  have r := ratio_near (saturation_pos _) (saturation_pos _) v2 v1
  unfold humidityOf humidity
  have q1 : Temperature.vapourPressure (celsius m) / Temperature.vapourPressure (celsius n) ≤ 1 := by
    rw [div_le_one (lt_of_lt_of_le (by norm_num) b1.1)]; exact hle
  have q0 : 0 ≤ Temperature.vapourPressure (celsius m) / Temperature.vapourPressure (celsius n) :=
    div_nonneg (le_trans (by norm_num) b2.1) (le_trans (by norm_num) b1.1)
  have hd : ((Temperature.vapourPressure (celsius m) / Temperature.vapourPressure (celsius n) : Rat) : ℝ) =
    ((Temperature.vapourPressure (celsius m) : Rat) : ℝ) / ((Temperature.vapourPressure (celsius n) : Rat) : ℝ) := by
    push_cast; rfl
  rw [← hd] at r
  generalize f64 (f64 (100 * Temperature.vapourPressure (celsius m)) / Temperature.vapourPressure (celsius n)) = z at *
  generalize Temperature.vapourPressure (celsius m) / Temperature.vapourPressure (celsius n) = w at *
  have f : |f32 z - 100 * w| ≤ 1 / 10 ^ 4 := by
    refine le_trans (f32_near (e := 1 / 10 ^ 8) 100 (le_trans c ?_) ?_ (by norm_num)) (by norm_num)
    · norm_num at *; linarith
    · rw [abs_of_nonneg (by linarith)]; linarith
  have f' : |((f32 z : Rat) : ℝ) - 100 * (w : ℝ)| ≤ 1 / 10 ^ 4 := by
    have := Rat.cast_le (K := ℝ) |>.mpr f
    push_cast at this
    norm_num at this ⊢
    exact this
  have q1' : (w : ℝ) ≤ 1 := by exact_mod_cast q1
  have pos : 0 < saturation ((m : ℝ) / 10) / saturation ((n : ℝ) / 10) :=
    div_pos (saturation_pos _) (saturation_pos _)
  generalize saturation ((m : ℝ) / 10) / saturation ((n : ℝ) / 10) = x at *
  have r1 := abs_le.mp r
  have f1 := abs_le.mp f'
  rw [abs_le]
  norm_num at *
  constructor <;> linarith

end Metaf.Props
