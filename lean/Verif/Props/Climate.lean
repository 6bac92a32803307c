import Verif.Ieee
import Verif.Model.Basic
import Verif.Proofs.Float
import Verif.Props.Conversion

/-!
C28 and C29: relative humidity, heat index and wind chill.

The theorems hold for the rounding of IEEE 754 (`FloatIeee`).  What is needed of `std::pow` with base
10 is stated as the hypothesis `PowTen`.
-/

namespace Metaf.Props

set_option linter.unusedSectionVars false

variable [FloatIeee]

/-- A temperature in tenths of a degree Celsius. -/
def tenths (t : Temperature) : Option Int :=
  t.tempValue.map fun v => if t.precise then v else 10 * v

/-! ### The value of a temperature -/

/-- The `float` nearest to one tenth. -/
theorem tenth_eq : Temperature.preciseValuePrecision = 13421773 / 2 ^ 27 := by
  unfold Temperature.preciseValuePrecision
  have h1 := f64_rel (x := 1 / 10) (by norm_num)
  have hn := FloatIeee.f32_nearest (f64 (1 / 10)) (((13421773 : Int) : Rat) * 2 ^ (-27 : Int))
  rw [FloatIeee.f32_rep 13421773 (-27) (by norm_num) (by norm_num)] at hn
  generalize f64 (1 / 10) = x at *
  rw [show |(1 / 10 : Rat)| = 1 / 10 by norm_num] at h1
  have h1' := abs_le.mp h1
  have e : ((13421773 : Int) : Rat) * 2 ^ (-27 : Int) = 13421773 / 2 ^ 27 := by norm_num
  rw [e, abs_of_nonneg (by norm_num at *; linarith : (0 : Rat) ≤ 13421773 / 2 ^ 27 - x)] at hn
  have hn' := abs_le.mp hn
  obtain ⟨k, hk⟩ := FloatIeee.f32_grid x (-4) (by
    refine le_trans ?_ (le_abs_self _)
    norm_num at *
    linarith)
  rw [hk] at hn' ⊢
  have e2 : (2 : Rat) ^ ((-4 : Int) - 23) = 1 / 2 ^ 27 := by norm_num
  rw [e2] at hn' ⊢
  have hk1 : (13421772 : Rat) < k := by norm_num at *; linarith
  have hk2 : (k : Rat) < 13421774 := by norm_num at *; linarith
  have : k = 13421773 := by
    have a : (13421772 : Int) < k := by exact_mod_cast hk1
    have b : k < (13421774 : Int) := by exact_mod_cast hk2
    omega
  rw [this]
  norm_num

/-- A whole number of degrees given in tenths is exact. -/
theorem whole_exact {m : Int} (hm : |m| ≤ 100) :
    f32 (((10 * m : Int) : Rat) * Temperature.preciseValuePrecision) = m := by
  by_cases h0 : m = 0
  · subst h0; simp [f32_zero]
  rw [tenth_eq]
  have e : (((10 * m : Int) : Rat) * (13421773 / 2 ^ 27)) = m + m / 2 ^ 26 := by push_cast; ring
  rw [e]
  have hfm : f32 (m : Rat) = m := FloatSem.f32_int m (le_trans hm (by norm_num))
  have hm1 : (1 : Rat) ≤ |(m : Rat)| := by
    have := Int.one_le_abs h0
    exact_mod_cast this
  have hm2 : |(m : Rat)| ≤ 100 := by exact_mod_cast hm
  have hn := FloatIeee.f32_nearest ((m : Rat) + m / 2 ^ 26) m
  rw [hfm] at hn
  have hab : |(m : Rat)| ≤ |f32 ((m : Rat) + m / 2 ^ 26)| := by
    rcases abs_cases (m : Rat) with ⟨h, h'⟩ | ⟨h, h'⟩
    · have := FloatSem.f32_mono (m : Rat) ((m : Rat) + m / 2 ^ 26) (by
        have : (0 : Rat) ≤ m / 2 ^ 26 := by positivity
        linarith)
      rw [hfm] at this
      rw [h]
      exact le_trans this (le_abs_self _)
    · have := FloatSem.f32_mono ((m : Rat) + m / 2 ^ 26) (m : Rat) (by
        have : (m : Rat) / 2 ^ 26 ≤ 0 := div_nonpos_of_nonpos_of_nonneg h'.le (by positivity)
        linarith)
      rw [hfm] at this
      rw [h]
      exact le_trans (neg_le_neg this) (neg_le_abs _)
  have hl1 : (2 : Rat) ^ Int.log 2 |(m : Rat)| ≤ |(m : Rat)| :=
    Int.zpow_log_le_self (by norm_num) (by linarith)
  have hl2 : |(m : Rat)| < 2 ^ (Int.log 2 |(m : Rat)| + 1) := by
    have := Int.lt_zpow_succ_log_self (b := 2) (by norm_num) |(m : Rat)|
    simpa using this
  generalize hlog : Int.log 2 |(m : Rat)| = l at *
  have hl0 : l < 7 := by
    by_contra hc
    have : (2 : Rat) ^ (7 : Int) ≤ 2 ^ l := two_zpow_le (by omega)
    norm_num at this
    linarith
  obtain ⟨k, hk⟩ := FloatIeee.f32_grid ((m : Rat) + m / 2 ^ 26) l (le_trans hl1 hab)
  have hgrid : (m : Rat) = ((m * 2 ^ (23 - l).toNat : Int) : Rat) * 2 ^ (l - 23) := by
    push_cast
    rw [mul_assoc, ← zpow_natCast, ← two_zpow_add]
    have : ((23 - l).toNat : Int) + (l - 23) = 0 := by omega
    rw [this, zpow_zero, mul_one]
  rw [hk]
  have hd : |(k : Rat) * 2 ^ (l - 23) - m| < 2 ^ (l - 23) := by
    rw [hk] at hn
    have e1 := abs_add_le ((k : Rat) * 2 ^ (l - 23) - (m + m / 2 ^ 26)) ((m : Rat) + m / 2 ^ 26 - m)
    rw [show (k : Rat) * 2 ^ (l - 23) - (m + m / 2 ^ 26) + (m + m / 2 ^ 26 - m) =
      k * 2 ^ (l - 23) - m by ring] at e1
    rw [abs_sub_comm (m : Rat)] at hn
    have e2 : |(m : Rat) + m / 2 ^ 26 - m| = |(m : Rat)| / 2 ^ 26 := by
      rw [show (m : Rat) + m / 2 ^ 26 - m = m / 2 ^ 26 by ring, abs_div]
      norm_num
    rw [e2] at hn e1
    have e3 : (2 : Rat) ^ (l + 1) = 2 ^ (l - 23) * 2 ^ 24 := by
      rw [show l + 1 = l - 23 + 24 by ring, two_zpow_add]; norm_num
    rw [e3] at hl2
    have hu := two_zpow_pos (l - 23)
    generalize (2 : Rat) ^ (l - 23) = u at *
    norm_num at *
    linarith
  have hu := two_zpow_pos (l - 23)
  generalize hM : m * 2 ^ (23 - l).toNat = M at *
  rw [hgrid] at hd ⊢
  rw [← sub_mul, abs_mul, abs_of_pos hu, mul_lt_iff_lt_one_left hu] at hd
  have : |k - M| < 1 := by exact_mod_cast hd
  have : k = M := by rw [Int.abs_lt_one_iff] at this; omega
  rw [this]

/-- The value of a reported temperature is the `float` for its tenths. -/
theorem temperature_eq {t : Temperature} {n : Int} (h : tenths t = some n) (hn : |n| ≤ 1000) :
    t.toUnit .C = some (f32 ((n : Rat) * Temperature.preciseValuePrecision)) := by
  obtain ⟨v, f, p⟩ := t
  cases v with
  | none => simp [tenths] at h
  | some v =>
    cases p
    · simp only [tenths, Option.map_some, Bool.false_eq_true, if_false, Option.some.injEq] at h
      subst h
      have hv : |v| ≤ 100 := by rw [abs_mul] at hn; norm_num at hn; omega
      rw [whole_exact hv]
      simp only [Temperature.toUnit, Temperature.temperature, Bool.false_eq_true, if_false]
      rw [FloatSem.f32_int v (le_trans hv (by norm_num))]
    · simp only [tenths, Option.map_some, if_true, Option.some.injEq] at h
      subst h
      simp only [Temperature.toUnit, Temperature.temperature, if_true]
      rw [FloatSem.f32_int v (le_trans hn (by norm_num))]

/-- The value of a temperature is near its tenths. -/
theorem value_near {n : Int} (hn : |n| ≤ 1000) :
    |f32 ((n : Rat) * Temperature.preciseValuePrecision) - (n : Rat) / 10| ≤ 1 / 100000 := by
  rw [tenth_eq]
  have hn' : |(n : Rat)| ≤ 1000 := by exact_mod_cast hn
  have hn2 := abs_le.mp hn'
  have h := f32_rel (x := (n : Rat) * (13421773 / 2 ^ 27)) (by
    rw [abs_le]; norm_num; constructor <;> linarith)
  have hb : |(n : Rat) * (13421773 / 2 ^ 27)| ≤ 101 := by
    rw [abs_le]; norm_num; constructor <;> linarith
  generalize f32 ((n : Rat) * (13421773 / 2 ^ 27)) = z at *
  have h2 : |z - (n : Rat) * (13421773 / 2 ^ 27)| ≤ 102 / 2 ^ 24 := by
    refine le_trans h ?_
    generalize |(n : Rat) * (13421773 / 2 ^ 27)| = b at *
    norm_num at *
    linarith
  have h3 := abs_le.mp h2
  rw [abs_le]
  norm_num at *
  constructor <;> linarith

theorem precision_pos : 0 ≤ Temperature.preciseValuePrecision := by rw [tenth_eq]; norm_num

theorem value_mono {n m : Int} (h : n ≤ m) :
    f32 ((n : Rat) * Temperature.preciseValuePrecision) ≤
      f32 ((m : Rat) * Temperature.preciseValuePrecision) :=
  FloatSem.f32_mono _ _ (mul_le_mul_of_nonneg_right (by exact_mod_cast h) precision_pos)

theorem value_lt {n m : Int} (hn : |n| ≤ 1000) (hm : |m| ≤ 1000) :
    f32 ((n : Rat) * Temperature.preciseValuePrecision) <
      f32 ((m : Rat) * Temperature.preciseValuePrecision) ↔ n < m := by
  constructor
  · intro h
    by_contra hc
    have := value_mono (not_lt.mp hc)
    linarith
  · intro h
    have h1 := (abs_le.mp (value_near hn)).2
    have h2 := (abs_le.mp (value_near hm)).1
    have h3 : (n : Rat) + 1 ≤ m := by exact_mod_cast h
    norm_num at *
    linarith

/-! ### C28: relative humidity -/

/-- What is assumed of `std::pow` with base 10 and exponents within −6..6: it grows by 1 part in 1000
when the exponent grows by 1/1000 (10 to the power 1/1000 is 1.0023), and its values are within very
wide bounds. -/
structure PowTen : Prop where
  grows : ∀ x y : Rat, -6 ≤ x → y ≤ 6 → x + 1 / 1000 ≤ y →
    FloatSem.pow 10 x * (1 + 1 / 1000) ≤ FloatSem.pow 10 y
  low : ∀ x : Rat, -6 ≤ x → x ≤ 6 → 1 / 10 ^ 8 ≤ FloatSem.pow 10 x
  high : ∀ x : Rat, -6 ≤ x → x ≤ 6 → FloatSem.pow 10 x ≤ 10 ^ 8

/-- The exponent of the vapour pressure formula. -/
def exponent (x : Rat) : Rat := f64 (f64 (f64 (75 / 10) * x) / f64 (f64 (2377 / 10) + x))

theorem vapour_eq (x : Rat) :
    Temperature.vapourPressure x = f64 (f64 (611 / 100) * FloatSem.pow 10 (exponent x)) := rfl

theorem exponent_near {x : Rat} (hx : |x| ≤ 101) :
    |exponent x - (75 / 10) * x / (2377 / 10 + x)| ≤ 1 / 10 ^ 9 := by
  unfold exponent
  have hx' := abs_le.mp hx
  have h1 := abs_le.mp (f64_near (x := 75 / 10) 8 (near_self _) (by norm_num) (by norm_num))
  have h2 := mul_near (f64_near (x := 75 / 10) 8 (near_self _) (by norm_num) (by norm_num))
    (near_self x) (show |(75 / 10 : Rat)| ≤ 8 by norm_num) hx
  have hb : |75 / 10 * x| ≤ 760 := by rw [abs_le]; constructor <;> linarith
  have h3 := f64_near 760 h2 hb (by norm_num)
  have h4 := add_near (f64_near (x := 2377 / 10) 238 (near_self _) (by norm_num) (by norm_num)) (near_self x)
  have hd : |2377 / 10 + x| ≤ 340 := by rw [abs_le]; constructor <;> linarith
  have h5 := f64_near 340 h4 hd (by norm_num)
  generalize f64 (f64 (75 / 10) * x) = p at *
  generalize f64 (f64 (2377 / 10) + x) = d at *
  have hp : |p - 75 / 10 * x| ≤ 1 / 10 ^ 12 := le_trans h3 (by norm_num)
  have hd2 : |d - (2377 / 10 + x)| ≤ 1 / 10 ^ 12 := le_trans h5 (by norm_num)
  clear h1 h2 h3 h4 h5
  have hd3 := abs_le.mp hd2
  have hdpos : 136 ≤ d := by norm_num at *; linarith
  have hD : 136 ≤ 2377 / 10 + x := by linarith
  generalize 75 / 10 * x = y at *
  generalize 2377 / 10 + x = D at *
  have hq : |p / d - y / D| ≤ 1 / 10 ^ 11 := by
    have e : p / d - y / D = (p - y) / d + y / D * ((D - d) / d) := by
      have : d ≠ 0 := by linarith
      have : D ≠ 0 := by linarith
      field_simp
      ring
    rw [e]
    refine le_trans (abs_add_le _ _) ?_
    have e1 : |(p - y) / d| ≤ 1 / 10 ^ 12 := by
      rw [abs_div, abs_of_pos (by linarith : (0 : Rat) < d)]
      exact le_trans (div_le_self (abs_nonneg _) (by linarith)) hp
    have e2 : |y / D| ≤ 6 := by
      rw [abs_div, abs_of_pos (by linarith : (0 : Rat) < D), div_le_iff₀ (by linarith)]
      linarith
    have e3 : |(D - d) / d| ≤ 1 / 10 ^ 12 := by
      rw [abs_div, abs_of_pos (by linarith : (0 : Rat) < d), abs_sub_comm]
      exact le_trans (div_le_self (abs_nonneg _) (by linarith)) hd2
    have e4 : |y / D * ((D - d) / d)| ≤ 6 * (1 / 10 ^ 12) := by
      rw [abs_mul]
      exact mul_le_mul e2 e3 (abs_nonneg _) (by norm_num)
    norm_num at *
    linarith
  have hyD : |y / D| ≤ 6 := by
    rw [abs_div, abs_of_pos (by linarith : (0 : Rat) < D), div_le_iff₀ (by linarith)]
    linarith
  exact le_trans (f64_near 6 hq hyD (by norm_num)) (by norm_num)

/-- The exponent is within −6..6 and grows by more than 1/1000 per tenth of a degree. -/
theorem exponent_bound {x : Rat} (hx : |x| ≤ 101) : -6 ≤ exponent x ∧ exponent x ≤ 6 := by
  have h := abs_le.mp (exponent_near hx)
  have hx' := abs_le.mp hx
  have hD : 0 < 2377 / 10 + x := by linarith
  have h1 : 75 / 10 * x / (2377 / 10 + x) ≤ 59 / 10 := by rw [div_le_iff₀ hD]; linarith
  have h2 : -(59 / 10) ≤ 75 / 10 * x / (2377 / 10 + x) := by rw [le_div_iff₀ hD]; linarith
  generalize 75 / 10 * x / (2377 / 10 + x) = g at *
  norm_num at *
  constructor <;> linarith

theorem exponent_grows {x y : Rat} (hx : |x| ≤ 101) (hy : |y| ≤ 101) (h : x + 9 / 100 ≤ y) :
    exponent x + 1 / 1000 ≤ exponent y := by
  have h1 := abs_le.mp (exponent_near hx)
  have h2 := abs_le.mp (exponent_near hy)
  have hx' := abs_le.mp hx
  have hy' := abs_le.mp hy
  have key : 75 / 10 * x / (2377 / 10 + x) + 12 / 10000 ≤ 75 / 10 * y / (2377 / 10 + y) := by
    have hX : 0 < 2377 / 10 + x := by linarith
    have hY : 0 < 2377 / 10 + y := by linarith
    have e : 75 / 10 * y / (2377 / 10 + y) - 75 / 10 * x / (2377 / 10 + x) =
        75 / 10 * (2377 / 10) * (y - x) / ((2377 / 10 + x) * (2377 / 10 + y)) := by
      rw [div_sub_div _ _ hY.ne' hX.ne']
      congr 1 <;> ring
    have hb : (2377 / 10 + x) * (2377 / 10 + y) ≤ 339 * 339 :=
      mul_le_mul (by linarith) (by linarith) hY.le (by norm_num)
    have : 12 / 10000 ≤ 75 / 10 * (2377 / 10) * (y - x) / ((2377 / 10 + x) * (2377 / 10 + y)) := by
      rw [le_div_iff₀ (by positivity)]
      linarith
    linarith
  generalize 75 / 10 * x / (2377 / 10 + x) = g at *
  generalize 75 / 10 * y / (2377 / 10 + y) = g' at *
  norm_num at *
  linarith

/-- The vapour pressure of the values of two temperatures. -/
theorem vapour_bounds (hp : PowTen) {x : Rat} (hx : |x| ≤ 101) :
    1 / 10 ^ 8 ≤ Temperature.vapourPressure x ∧ Temperature.vapourPressure x ≤ 10 ^ 9 := by
  rw [vapour_eq]
  obtain ⟨h1, h2⟩ := exponent_bound hx
  have hl := hp.low _ h1 h2
  have hh := hp.high _ h1 h2
  generalize FloatSem.pow 10 (exponent x) = w at *
  have hk := f64_near (x := 611 / 100) 7 (near_self _) (by norm_num) (by norm_num)
  generalize f64 (611 / 100) = k at *
  have hk' := abs_le.mp hk
  have hk1 : 6 ≤ k := by norm_num at *; linarith
  have hk2 : k ≤ 7 := by norm_num at *; linarith
  have hw0 : 0 ≤ w := le_trans (by norm_num) hl
  have h3 : 6 * w ≤ k * w := mul_le_mul_of_nonneg_right hk1 hw0
  have h4 : k * w ≤ 7 * w := mul_le_mul_of_nonneg_right hk2 hw0
  have hkw : 0 ≤ k * w := by linarith
  have h5 := f64_rel (x := k * w) (by rw [abs_of_nonneg hkw]; norm_num at *; linarith)
  rw [abs_of_nonneg hkw] at h5
  have h5' := abs_le.mp h5
  generalize f64 (k * w) = z at *
  generalize k * w = q at *
  norm_num at *
  constructor <;> linarith

/-- The vapour pressure grows by at least 9 parts in 10000 between neighbouring temperatures. -/
theorem vapour_grows (hp : PowTen) {x y : Rat} (hx : |x| ≤ 101) (hy : |y| ≤ 101) (h : x + 9 / 100 ≤ y) :
    Temperature.vapourPressure x * (1 + 9 / 10000) ≤ Temperature.vapourPressure y := by
  rw [vapour_eq, vapour_eq]
  obtain ⟨h1, h2⟩ := exponent_bound hx
  obtain ⟨h3, h4⟩ := exponent_bound hy
  have hg := hp.grows _ _ h1 h4 (exponent_grows hx hy h)
  have hl := hp.low _ h1 h2
  have hh := hp.high _ h3 h4
  generalize FloatSem.pow 10 (exponent x) = w at *
  generalize FloatSem.pow 10 (exponent y) = w' at *
  have hk := f64_near (x := 611 / 100) 7 (near_self _) (by norm_num) (by norm_num)
  generalize f64 (611 / 100) = k at *
  have hk' := abs_le.mp hk
  have hk1 : 6 ≤ k := by norm_num at *; linarith
  have hk2 : k ≤ 7 := by norm_num at *; linarith
  have hw0 : 0 ≤ w := le_trans (by norm_num) hl
  have hw0' : 0 ≤ w' := by linarith
  have h5 : k * w * (1 + 1 / 1000) ≤ k * w' := by
    rw [mul_assoc]; exact mul_le_mul_of_nonneg_left hg (by linarith)
  have h6 : 6 * w ≤ k * w := mul_le_mul_of_nonneg_right hk1 hw0
  have h7 : k * w' ≤ 7 * w' := mul_le_mul_of_nonneg_right hk2 hw0'
  have hkw : 0 ≤ k * w := by linarith
  have hkw' : 0 ≤ k * w' := by linarith
  have e1 := f64_rel (x := k * w) (by rw [abs_of_nonneg hkw]; norm_num at *; linarith)
  have e2 := f64_rel (x := k * w') (by rw [abs_of_nonneg hkw']; norm_num at *; linarith)
  rw [abs_of_nonneg hkw] at e1
  rw [abs_of_nonneg hkw'] at e2
  have e1' := abs_le.mp e1
  have e2' := abs_le.mp e2
  generalize f64 (k * w) = z at *
  generalize k * w = q at *
  generalize f64 (k * w') = z' at *
  generalize k * w' = q' at *
  norm_num at *
  linarith

/-- A `double` near 100 becomes the `float` 100. -/
theorem f32_hundred {y : Rat} (h : |100 - y| ≤ 1 / 10 ^ 10) : f32 y = 100 := by
  have h100 : f32 (100 : Rat) = 100 := by
    have := FloatSem.f32_int 100 (by norm_num)
    exact_mod_cast this
  have hn := FloatIeee.f32_nearest y 100
  rw [h100] at hn
  have hn' := abs_le.mp (le_trans hn h)
  have h' := abs_le.mp h
  obtain ⟨k, hk⟩ := FloatIeee.f32_grid y 6 (by
    refine le_trans ?_ (le_abs_self _)
    norm_num at *
    linarith)
  rw [hk] at hn' ⊢
  have e : (2 : Rat) ^ ((6 : Int) - 23) = 1 / 2 ^ 17 := by norm_num
  rw [e] at hn' ⊢
  have a : (13107199 : Rat) < k := by norm_num at *; linarith
  have b : (k : Rat) < 13107201 := by norm_num at *; linarith
  have : k = 13107200 := by
    have a' : (13107199 : Int) < k := by exact_mod_cast a
    have b' : k < (13107201 : Int) := by exact_mod_cast b
    omega
  rw [this]
  norm_num

/-- The humidity computed of two vapour pressures. -/
def humidity (d t : Rat) : Rat := f32 (f64 (f64 (100 * d) / t))

theorem humidity_near {d t : Rat} (hd : 1 / 10 ^ 8 ≤ d) (ht : 1 / 10 ^ 8 ≤ t) (hd' : d ≤ 10 ^ 9)
    (ht' : t ≤ 10 ^ 9) (hdt : d ≤ t) :
    |f64 (f64 (100 * d) / t) - 100 * (d / t)| ≤ 100 * (d / t) / 2 ^ 48 := by
  have hd0 : 0 < d := lt_of_lt_of_le (by norm_num) hd
  have ht0 : 0 < t := lt_of_lt_of_le (by norm_num) ht
  have h1 := f64_rel (x := 100 * d) (by rw [abs_of_pos (by positivity)]; norm_num at *; linarith)
  rw [abs_of_pos (by positivity : 0 < 100 * d)] at h1
  have h2 : |f64 (100 * d) / t - 100 * (d / t)| ≤ 100 * (d / t) / 2 ^ 52 := by
    rw [show f64 (100 * d) / t - 100 * (d / t) = (f64 (100 * d) - 100 * d) / t by ring, abs_div,
      abs_of_pos ht0, div_le_iff₀ ht0]
    rw [show 100 * (d / t) / 2 ^ 52 * t = 100 * d / 2 ^ 52 by field_simp]
    norm_num at *
    linarith
  have hr0 : 1 / 10 ^ 17 ≤ d / t := by
    rw [le_div_iff₀ ht0]
    norm_num at *
    linarith
  have hr1 : d / t ≤ 1 := by rw [div_le_one ht0]; exact hdt
  generalize f64 (100 * d) / t = z at *
  generalize d / t = r at *
  have h2' := abs_le.mp h2
  have hz0 : 0 ≤ z := by norm_num at *; linarith
  have hz1 : z ≤ 101 := by norm_num at *; linarith
  have h3 := f64_rel (x := z) (by rw [abs_of_nonneg hz0]; norm_num; linarith)
  rw [abs_of_nonneg hz0] at h3
  have h3' := abs_le.mp h3
  rw [abs_le]
  norm_num at *
  constructor <;> linarith

theorem humidity_range {d t : Rat} (hd : 1 / 10 ^ 8 ≤ d) (ht : 1 / 10 ^ 8 ≤ t) (hd' : d ≤ 10 ^ 9)
    (ht' : t ≤ 10 ^ 9) (hdt : d ≤ t) : 0 < humidity d t ∧ humidity d t ≤ 100 := by
  have h := humidity_near hd ht hd' ht' hdt
  have hd0 : 0 < d := lt_of_lt_of_le (by norm_num) hd
  have ht0 : 0 < t := lt_of_lt_of_le (by norm_num) ht
  have hr0 : 1 / 10 ^ 17 ≤ d / t := by
    rw [le_div_iff₀ ht0]
    norm_num at *
    linarith
  have hr1 : d / t ≤ 1 := by rw [div_le_one ht0]; exact hdt
  unfold humidity
  generalize f64 (f64 (100 * d) / t) = z at *
  generalize d / t = r at *
  have h' := abs_le.mp h
  have hz0 : 1 / 10 ^ 16 ≤ z := by norm_num at *; linarith
  have hz1 : z ≤ 100 + 1 / 10 ^ 10 := by norm_num at *; linarith
  constructor
  · have h3 := f32_rel (x := z) (by rw [abs_of_pos (lt_of_lt_of_le (by norm_num) hz0)]; norm_num at *; linarith)
    rw [abs_of_pos (lt_of_lt_of_le (by norm_num) hz0)] at h3
    have h3' := abs_le.mp h3
    norm_num at *
    linarith
  · rcases le_total 100 z with hc | hc
    · exact (f32_hundred (by rw [abs_le]; norm_num at *; constructor <;> linarith)).le
    · have := FloatSem.f32_mono _ _ hc
      have h100 : f32 (100 : Rat) = 100 := by
        have := FloatSem.f32_int 100 (by norm_num)
        exact_mod_cast this
      rwa [h100] at this

theorem humidity_mono {c d t : Rat} (ht : 0 ≤ t) (h : c ≤ d) : humidity c t ≤ humidity d t :=
  FloatSem.f32_mono _ _ (FloatSem.f64_mono _ _ (div_le_div_of_nonneg_right
    (FloatSem.f64_mono _ _ (by linarith)) ht))

theorem humidity_strict {c d t : Rat} (hc : 1 / 10 ^ 8 ≤ c) (hd : 1 / 10 ^ 8 ≤ d) (ht : 1 / 10 ^ 8 ≤ t)
    (hc' : c ≤ 10 ^ 9) (hd' : d ≤ 10 ^ 9) (ht' : t ≤ 10 ^ 9) (hdt : d ≤ t)
    (h : c * (1 + 9 / 10000) ≤ d) : humidity c t < humidity d t := by
  have ht0 : 0 < t := lt_of_lt_of_le (by norm_num) ht
  have hct : c ≤ t := by linarith
  have h1 := abs_le.mp (humidity_near hc ht hc' ht' hct)
  have h2 := abs_le.mp (humidity_near hd ht hd' ht' hdt)
  have hr0 : 1 / 10 ^ 17 ≤ c / t := by
    rw [le_div_iff₀ ht0]
    norm_num at *
    linarith
  have hr1 : d / t ≤ 1 := by rw [div_le_one ht0]; exact hdt
  have hr2 : c / t * (1 + 9 / 10000) ≤ d / t := by
    rw [div_mul_eq_mul_div]
    exact div_le_div_of_nonneg_right h ht0.le
  unfold humidity
  generalize f64 (f64 (100 * c) / t) = x at *
  generalize f64 (f64 (100 * d) / t) = y at *
  generalize c / t = r at *
  generalize d / t = s at *
  have hx0 : 0 ≤ x := by norm_num at *; linarith
  have hy0 : 0 ≤ y := by norm_num at *; linarith
  have e1 := f32_rel (x := x) (by rw [abs_of_nonneg hx0]; norm_num at *; linarith)
  have e2 := f32_rel (x := y) (by rw [abs_of_nonneg hy0]; norm_num at *; linarith)
  rw [abs_of_nonneg hx0] at e1
  rw [abs_of_nonneg hy0] at e2
  have e1' := abs_le.mp e1
  have e2' := abs_le.mp e2
  norm_num at *
  linarith

theorem value_bound {n : Int} (hn : |n| ≤ 1000) :
    |f32 ((n : Rat) * Temperature.preciseValuePrecision)| ≤ 101 := by
  have h := abs_le.mp (value_near hn)
  have hn' : |(n : Rat)| ≤ 1000 := by exact_mod_cast hn
  have hn2 := abs_le.mp hn'
  rw [abs_le]
  norm_num at *
  constructor <;> linarith

theorem humidity_eq {t d : Temperature} {n m : Int} (ht : tenths t = some n) (hd : tenths d = some m)
    (hn : |n| ≤ 1000) (hm : |m| ≤ 1000) :
    Temperature.relativeHumidity t d =
      if n < m then some 100 else
        some (humidity (Temperature.vapourPressure (f32 ((m : Rat) * Temperature.preciseValuePrecision)))
          (Temperature.vapourPressure (f32 ((n : Rat) * Temperature.preciseValuePrecision)))) := by
  unfold Temperature.relativeHumidity
  rw [temperature_eq ht hn, temperature_eq hd hm]
  simp only [value_lt hn hm]
  rfl

theorem vapour_le (hp : PowTen) {n m : Int} (hn : |n| ≤ 1000) (hm : |m| ≤ 1000) (h : n ≤ m) :
    Temperature.vapourPressure (f32 ((n : Rat) * Temperature.preciseValuePrecision)) ≤
      Temperature.vapourPressure (f32 ((m : Rat) * Temperature.preciseValuePrecision)) := by
  rcases eq_or_lt_of_le h with rfl | h
  · exact le_refl _
  · have hg := vapour_grows hp (value_bound hn) (value_bound hm) (by
      have h1 := (abs_le.mp (value_near hn)).2
      have h2 := (abs_le.mp (value_near hm)).1
      have h3 : (n : Rat) + 1 ≤ m := by exact_mod_cast h
      norm_num at *
      linarith)
    have h0 := (vapour_bounds hp (value_bound hn)).1
    norm_num at *
    linarith

/-- C28: relative humidity is available exactly if both temperatures are reported. -/
theorem C28_available (t d : Temperature) :
    (Temperature.relativeHumidity t d).isSome = (t.isReported && d.isReported) := by
  obtain ⟨v, f, p⟩ := t
  obtain ⟨w, g, q⟩ := d
  cases v <;> cases w
  case some.some =>
    simp only [Temperature.relativeHumidity, Temperature.toUnit, Temperature.temperature]
    split_ifs <;> rfl
  all_goals rfl

/-- C28: relative humidity is within (0, 100]. -/
theorem C28_range (hp : PowTen) (t d : Temperature) (n m : Int) (ht : tenths t = some n)
    (hd : tenths d = some m) (hn : |n| ≤ 1000) (hm : |m| ≤ 1000) :
    ∃ r, Temperature.relativeHumidity t d = some r ∧ 0 < r ∧ r ≤ 100 := by
  rw [humidity_eq ht hd hn hm]
  split
  · exact ⟨100, rfl, by norm_num, le_refl _⟩
  · rename_i h
    have b1 := vapour_bounds hp (value_bound hn)
    have b2 := vapour_bounds hp (value_bound hm)
    exact ⟨_, rfl, humidity_range b2.1 b1.1 b2.2 b1.2 (vapour_le hp hm hn (by omega))⟩

/-- C28: relative humidity does not decrease when the dew point rises. -/
theorem C28_mono (hp : PowTen) (t d e : Temperature) (n m k : Int) (ht : tenths t = some n)
    (hd : tenths d = some m) (he : tenths e = some k) (hn : |n| ≤ 1000) (hm : |m| ≤ 1000)
    (hk : |k| ≤ 1000) (h : m ≤ k) (r s : Rat) (hr : Temperature.relativeHumidity t d = some r)
    (hs : Temperature.relativeHumidity t e = some s) : r ≤ s := by
  obtain ⟨r', h1, -, h2⟩ := C28_range hp t d n m ht hd hn hm
  rw [hr] at h1
  obtain rfl := Option.some.inj h1
  rw [humidity_eq ht he hn hk] at hs
  split at hs
  · obtain rfl := Option.some.inj hs
    exact h2
  · obtain rfl := Option.some.inj hs
    rw [humidity_eq ht hd hn hm, if_neg (by omega)] at hr
    obtain rfl := Option.some.inj hr
    exact humidity_mono (le_trans (by norm_num) (vapour_bounds hp (value_bound hn)).1)
      (vapour_le hp hm hk h)

/-- C28: below saturation relative humidity rises with the dew point, and it is 100 when the dew
point is above the temperature. -/
theorem C28_strict (hp : PowTen) (t d e : Temperature) (n m k : Int) (ht : tenths t = some n)
    (hd : tenths d = some m) (he : tenths e = some k) (hn : |n| ≤ 1000) (hm : |m| ≤ 1000)
    (hk : |k| ≤ 1000) (h : m < k) (hkn : k ≤ n) (r s : Rat)
    (hr : Temperature.relativeHumidity t d = some r)
    (hs : Temperature.relativeHumidity t e = some s) : r < s := by
  rw [humidity_eq ht he hn hk, if_neg (by omega)] at hs
  obtain rfl := Option.some.inj hs
  rw [humidity_eq ht hd hn hm, if_neg (by omega)] at hr
  obtain rfl := Option.some.inj hr
  have b0 := vapour_bounds hp (value_bound hn)
  have b1 := vapour_bounds hp (value_bound hm)
  have b2 := vapour_bounds hp (value_bound hk)
  refine humidity_strict b1.1 b2.1 b0.1 b1.2 b2.2 b0.2 (vapour_le hp hk hn hkn)
    (vapour_grows hp (value_bound hm) (value_bound hk) ?_)
  have h1 := (abs_le.mp (value_near hm)).2
  have h2 := (abs_le.mp (value_near hk)).1
  have h3 : (m : Rat) + 1 ≤ k := by exact_mod_cast h
  norm_num at *
  linarith

/-- C28: relative humidity is 100 when the dew point is above the temperature, and when they are
equal. -/
theorem C28_saturated (hp : PowTen) (t d : Temperature) (n m : Int) (ht : tenths t = some n)
    (hd : tenths d = some m) (hn : |n| ≤ 1000) (hm : |m| ≤ 1000) (h : n ≤ m) :
    Temperature.relativeHumidity t d = some 100 := by
  rw [humidity_eq ht hd hn hm]
  split
  · rfl
  · obtain rfl : n = m := by omega
    have b := vapour_bounds hp (value_bound hn)
    generalize Temperature.vapourPressure (f32 ((n : Rat) * Temperature.preciseValuePrecision)) = v at *
    have hv0 : 0 < v := lt_of_lt_of_le (by norm_num) b.1
    have hh := humidity_near b.1 b.1 b.2 b.2 (le_refl v)
    rw [div_self hv0.ne'] at hh
    unfold humidity
    rw [f32_hundred]
    rw [abs_sub_comm]
    refine le_trans (le_trans (le_of_eq (by rw [mul_one])) hh) (by norm_num)

/-! ### C29: heat index and wind chill -/

/-- C29: the heat index of a temperature and a humidity is reported exactly for temperatures from
27 C and humidity within 40..100. -/
theorem C29_heat_index (t : Temperature) (rh : Rat) (h : ∀ n, tenths t = some n → |n| ≤ 1000) :
    (Temperature.heatIndexRh t rh).isReported = true ↔
      ∃ n, tenths t = some n ∧ 270 ≤ n ∧ 40 ≤ rh ∧ rh ≤ 100 := by
  unfold Temperature.heatIndexRh
  cases ht : tenths t with
  | none =>
    have : t.toUnit .C = none := by
      obtain ⟨v, f, p⟩ := t
      cases v
      · rfl
      · simp [tenths] at ht
    rw [this]
    simp [Temperature.isReported]
  | some n =>
    have hn := h n ht
    rw [temperature_eq ht hn]
    have h27 : f32 (((270 : Int) : Rat) * Temperature.preciseValuePrecision) = 27 := by
      have := whole_exact (m := 27) (by norm_num)
      simpa using this
    have hlt := value_lt (n := n) (m := 270) hn (by norm_num)
    rw [h27] at hlt
    simp only [hlt, Option.some.injEq, exists_eq_left']
    by_cases hc : n < 270
    · rw [if_pos hc]
      simp [Temperature.isReported]
      omega
    · rw [if_neg hc]
      by_cases hr : rh > 100 ∨ rh < 40
      · rw [if_pos (by simpa using hr)]
        simp [Temperature.isReported]
        rcases hr with hr | hr
        · intro _ _; exact hr
        · intro _ h'; linarith
      · rw [if_neg (by simpa using hr)]
        simp only [Temperature.isReported, Temperature.ofFloat, Option.isSome_some, true_iff]
        push Not at hr
        exact ⟨by omega, hr.2, hr.1⟩

/-- C29: the heat index of a temperature and a dew point is reported exactly for temperatures from
27 C and relative humidity from 40. -/
theorem C29_heat_index_dew_point (hp : PowTen) (t d : Temperature)
    (h : ∀ n, tenths t = some n → |n| ≤ 1000) (h' : ∀ n, tenths d = some n → |n| ≤ 1000) :
    (Temperature.heatIndex t d).isReported = true ↔
      ∃ n rh, tenths t = some n ∧ 270 ≤ n ∧ Temperature.relativeHumidity t d = some rh ∧ 40 ≤ rh := by
  unfold Temperature.heatIndex
  cases hr : Temperature.relativeHumidity t d with
  | none => simp [Temperature.isReported]
  | some rh =>
    simp only [C29_heat_index t rh h]
    have hle : rh ≤ 100 := by
      cases ht : tenths t with
      | none =>
        obtain ⟨v, f, p⟩ := t
        cases v
        · simp [Temperature.relativeHumidity, Temperature.toUnit, Temperature.temperature] at hr
        · simp [tenths] at ht
      | some n =>
        cases hd : tenths d with
        | none =>
          obtain ⟨v, f, p⟩ := d
          cases v
          · simp only [Temperature.relativeHumidity, Temperature.toUnit, Temperature.temperature] at hr
            split at hr <;> simp_all
          · simp [tenths] at hd
        | some m =>
          obtain ⟨r, e1, -, e2⟩ := C28_range hp t d n m ht hd (h n ht) (h' m hd)
          rw [hr] at e1
          obtain rfl := Option.some.inj e1
          exact e2
    constructor
    · rintro ⟨n, h1, h2, h3, -⟩
      exact ⟨n, rh, h1, h2, rfl, h3⟩
    · rintro ⟨n, r, h1, h2, h3, h4⟩
      obtain rfl := Option.some.inj h3
      exact ⟨n, h1, h2, h4, hle⟩

/-- Kilometres per hour. -/
def kmhExact (v : Nat) (u : SpeedUnit) : Rat := v * (mpsPer u / mpsPer .KILOMETERS_PER_HOUR)

/-- The least number of units that makes 4.8 km/h. -/
def leastSpeed : SpeedUnit → Nat
  | .KNOTS => 3
  | .METERS_PER_SECOND => 2
  | .KILOMETERS_PER_HOUR => 5
  | .MILES_PER_HOUR => 3

theorem kmh_low (v : Nat) (u : SpeedUnit) (h : v < leastSpeed u) : kmhExact v u ≤ 47 / 10 := by
  have e : (v : Rat) + 1 ≤ leastSpeed u := by exact_mod_cast h
  cases u <;> simp only [leastSpeed] at e <;> simp only [kmhExact, mpsPer] <;>
    generalize (v : Rat) = q at * <;> norm_num at * <;> linarith

theorem kmh_high (v : Nat) (u : SpeedUnit) (h : leastSpeed u ≤ v) : 482 / 100 ≤ kmhExact v u := by
  have e : (leastSpeed u : Rat) ≤ v := by exact_mod_cast h
  cases u <;> simp only [leastSpeed] at e <;> simp only [kmhExact, mpsPer] <;>
    generalize (v : Rat) = q at * <;> norm_num at * <;> linarith

theorem kmh_gap (v : Nat) (u : SpeedUnit) : kmhExact v u ≤ 47 / 10 ∨ 482 / 100 ≤ kmhExact v u := by
  rcases Nat.lt_or_ge v (leastSpeed u) with h | h
  · exact Or.inl (kmh_low v u h)
  · exact Or.inr (kmh_high v u h)

/-- C29: the wind speeds for which wind chill is given, unit by unit: from 3 knots, 2 m/s, 5 km/h or
3 miles per hour. -/
theorem C29_speeds (v : Nat) (u : SpeedUnit) : 48 / 10 ≤ kmhExact v u ↔ leastSpeed u ≤ v := by
  constructor
  · intro h
    by_contra hc
    have := kmh_low v u (by omega)
    linarith
  · intro h
    have := kmh_high v u h
    linarith

/-- C29: wind chill is reported exactly for temperatures up to 10 C and wind speed from 4.8 km/h. -/
theorem C29_wind_chill (t : Temperature) (w : Speed) (h : ∀ n, tenths t = some n → |n| ≤ 1000)
    (hw : ∀ v, w.speedValue = some v → v < 2 ^ 32) :
    (Temperature.windChill t w).isReported = true ↔
      ∃ n v, tenths t = some n ∧ w.speedValue = some v ∧ n ≤ 100 ∧ 48 / 10 ≤ kmhExact v w.speedUnit := by
  unfold Temperature.windChill
  cases ht : tenths t with
  | none =>
    have : t.toUnit .C = none := by
      obtain ⟨v, f, p⟩ := t
      cases v
      · rfl
      · simp [tenths] at ht
    rw [this]
    simp [Temperature.isReported]
  | some n =>
    have hn := h n ht
    rw [temperature_eq ht hn]
    have h10 : f32 (((100 : Int) : Rat) * Temperature.preciseValuePrecision) = 10 := by
      have := whole_exact (m := 10) (by norm_num)
      simpa using this
    have hlt := value_lt (n := 100) (m := n) (by norm_num) hn
    rw [h10] at hlt
    simp only [gt_iff_lt, hlt, Option.some.injEq]
    by_cases hc : 100 < n
    · rw [if_pos hc]
      simp [Temperature.isReported]
      intro x hx hle
      omega
    · rw [if_neg hc]
      obtain ⟨v, u⟩ := w
      cases v with
      | none => simp [Temperature.isReported, Speed.toUnit]
      | some v =>
        obtain ⟨r, h1, h2⟩ := C31_speed_value v (hw v rfl) u .KILOMETERS_PER_HOUR
        rw [h1]
        have key : r < f64 (48 / 10) ↔ kmhExact v u < 48 / 10 := by
          unfold Within at h2
          change |r - kmhExact v u| ≤ kmhExact v u * (2 / 100000) + 1 / 2 ^ 60 at h2
          have hf := abs_le.mp (f64_near (x := 48 / 10) 5 (near_self _) (by norm_num) (by norm_num))
          have h2' := abs_le.mp h2
          have gap : kmhExact v u ≤ 47 / 10 ∨ 482 / 100 ≤ kmhExact v u := by
            exact kmh_gap v u
          have hk0 : 0 ≤ kmhExact v u := by
            unfold kmhExact
            refine mul_nonneg (by positivity) ?_
            cases u <;> norm_num [mpsPer]
          generalize kmhExact v u = q at *
          generalize f64 (48 / 10) = z at *
          rcases gap with g | g
          · constructor
            · intro _; linarith
            · intro _; norm_num at *; linarith
          · constructor
            · intro hlt; exfalso; norm_num at *; linarith
            · intro hlt; exfalso; linarith
        simp only [key]
        by_cases hk : kmhExact v u < 48 / 10
        · rw [if_pos hk]
          simp [Temperature.isReported]
          intro _
          exact hk
        · rw [if_neg hk]
          simp only [Temperature.isReported, Temperature.ofFloat, Option.isSome_some, true_iff]
          exact ⟨n, v, rfl, rfl, by omega, not_lt.mp hk⟩

end Metaf.Props

/-! ### The assumptions can be met -/

namespace Metaf.Props

attribute [local instance] ieee

/-- The assumptions about `std::pow` hold for the `pow` of `ieee`. -/
theorem powTen_ieee : PowTen where
  grows := fun x y _ _ h => by
    change (10023 / 10000 : Rat) ^ ⌊1000 * x⌋ * (1 + 1 / 1000) ≤ (10023 / 10000) ^ ⌊1000 * y⌋
    have h1 : ⌊1000 * x⌋ + 1 ≤ ⌊1000 * y⌋ := by
      rw [← Int.floor_add_one]
      exact Int.floor_mono (by linarith)
    have h2 : (10023 / 10000 : Rat) ^ (⌊1000 * x⌋ + 1) ≤ (10023 / 10000) ^ ⌊1000 * y⌋ :=
      zpow_le_zpow_right₀ (by norm_num) h1
    rw [zpow_add_one₀ (by norm_num)] at h2
    refine le_trans (mul_le_mul_of_nonneg_left (by norm_num) (zpow_nonneg (by norm_num) _)) h2
  low := fun x hx _ => by
    change (1 / 10 ^ 8 : Rat) ≤ (10023 / 10000) ^ ⌊1000 * x⌋
    have h1 : (-6000 : Int) ≤ ⌊1000 * x⌋ := by rw [Int.le_floor]; push_cast; linarith
    refine le_trans ?_ (zpow_le_zpow_right₀ (by norm_num) h1)
    rw [show (-6000 : Int) = -(((250 * 24 : Nat)) : Int) by norm_num, zpow_neg, zpow_natCast, ← one_div]
    apply one_div_le_one_div_of_le (by positivity)
    rw [pow_mul]
    refine le_trans (pow_le_pow_left₀ (by positivity) (show (10023 / 10000 : Rat) ^ 250 ≤ 2 by norm_num) 24) ?_
    norm_num
  high := fun x _ hx => by
    change (10023 / 10000 : Rat) ^ ⌊1000 * x⌋ ≤ 10 ^ 8
    have h1 : ⌊1000 * x⌋ ≤ ((250 * 24 : Nat) : Int) := by
      have h2 : ⌊1000 * x⌋ ≤ ⌊(6000 : Rat)⌋ := Int.floor_mono (by linarith)
      norm_num at h2 ⊢
      exact h2
    refine le_trans (zpow_le_zpow_right₀ (by norm_num) h1) ?_
    rw [zpow_natCast, pow_mul]
    refine le_trans (pow_le_pow_left₀ (by positivity) (show (10023 / 10000 : Rat) ^ 250 ≤ 2 by norm_num) 24) ?_
    norm_num

/-- Example: 20.5 C and dew point 12 C. -/
example : ∃ r, Temperature.relativeHumidity ⟨some 205, false, true⟩ ⟨some 12, false, false⟩ = some r ∧
    0 < r ∧ r ≤ 100 :=
  C28_range powTen_ieee _ _ 205 120 rfl rfl (by norm_num) (by norm_num)

/-- Example: heat index is given for 27 C and humidity 40, not for 26.9 C; wind chill for 10 C and
3 knots. -/
example : (Temperature.heatIndexRh ⟨some 27, false, false⟩ 40).isReported = true ∧
    ¬ (Temperature.heatIndexRh ⟨some 269, false, true⟩ 40).isReported = true ∧
    (Temperature.windChill ⟨some 10, false, false⟩ ⟨some 3, .KNOTS⟩).isReported = true := by
  refine ⟨(C29_heat_index _ _ ?_).mpr ⟨270, rfl, by norm_num, by norm_num, by norm_num⟩, ?_,
    (C29_wind_chill _ _ ?_ ?_).mpr ⟨100, 3, rfl, rfl, by norm_num, by norm_num [kmhExact, mpsPer]⟩⟩
  · rintro n h; obtain rfl := Option.some.inj h; norm_num
  · rw [C29_heat_index _ _ (by rintro n h; obtain rfl := Option.some.inj h; norm_num)]
    rintro ⟨n, h, h', -⟩
    obtain rfl := Option.some.inj h
    norm_num at h'
  · rintro n h; obtain rfl := Option.some.inj h; norm_num
  · rintro n h; obtain rfl := Option.some.inj h; norm_num

end Metaf.Props
