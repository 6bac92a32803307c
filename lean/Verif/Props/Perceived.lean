import Verif.Proofs.PerceivedHumidity

/-!
C140: relative humidity, heat index and wind chill are those of the published formulas (`Spec/Climate`).
C141: how heat index and wind chill depend on the temperature, the humidity and the wind.

What is needed of `std::pow` is the hypothesis `PowNear`; at the end of the file it is shown that it can be met.
-/

namespace Metaf.Props

open Metaf.Spec (heatIndexOf windChillOf humidityOf)

set_option linter.unusedSectionVars false

variable [FloatIeee]

/-! ### C140 -/

/-- C140, relative humidity: within a hundredth of a percent of the formula. -/
theorem C140_humidity (hp : PowNear) (t d : Temperature) (n m : Int) (ht : tenths t = some n)
    (hd : tenths d = some m) (hn : |n| ≤ 1000) (hm : |m| ≤ 1000) (h : m ≤ n) :
    ∃ r, Temperature.relativeHumidity t d = some r ∧
      |(r : ℝ) - humidityOf ((n : ℝ) / 10) ((m : ℝ) / 10)| ≤ 1 / 100 := by
  rw [humidity_eq ht hd hn hm, if_neg (by omega)]
  exact ⟨_, rfl, humidity_value hp hn hm h⟩

/-- C140, heat index of a temperature and a humidity: the formula rounded to tenths of a degree. -/
theorem C140_heat_index (t : Temperature) (n : Int) (r : Rat) (ht : tenths t = some n) (h1 : 270 ≤ n)
    (h2 : n ≤ 1000) (h3 : 40 ≤ r) (h4 : r ≤ 100) :
    ∃ k, tenths (Temperature.heatIndexRh t r) = some k ∧
      |(k : Rat) / 10 - heatIndexOf ((n : Rat) / 10) r| ≤ 52 / 1000 := by
  refine ⟨_, heatIndexRh_eq ht h1 h2 h3 h4, ?_⟩
  have a := heatIndexC_value h1 h2 h3 h4
  have hn : |n| ≤ 1000 := by rw [abs_le]; omega
  have hr : |r| ≤ 100 := by rw [abs_le]; constructor <;> linarith
  have hn' : |(n : Rat) / 10| ≤ 101 := by
    have : |(n : Rat)| ≤ 1000 := by exact_mod_cast hn
    rw [abs_div]; norm_num; linarith
  have b := tenthsOf_near a (heatPolynomial_bound hn' hr) (by norm_num)
  have c := heatPolynomial_near (t := (n : Rat) / 10) (r := r) (by linarith) h4
  have d := abs_sub_le ((tenthsOf (Temperature.heatIndexC (celsius n) r) : Rat) / 10)
    (heatPolynomial ((n : Rat) / 10) r) (heatIndexOf ((n : Rat) / 10) r)
  norm_num at *
  linarith

/-- C140, heat index of a temperature and a dew point: that of the relative humidity, which is the one given for
the temperature and the dew point. -/
theorem C140_heat_index_dew_point (t d : Temperature) (r : Rat) (h : Temperature.relativeHumidity t d = some r) :
    Temperature.heatIndex t d = Temperature.heatIndexRh t r := by
  unfold Temperature.heatIndex
  rw [h]

/-- C140, wind chill: the formula rounded to tenths of a degree. -/
theorem C140_wind_chill (hp : PowNear) (t : Temperature) (n : Int) (v : Nat) (u : SpeedUnit)
    (ht : tenths t = some n) (h1 : -1000 ≤ n) (h2 : n ≤ 100) (h3 : 48 / 10 ≤ kmhExact v u) (h4 : v < 1000) :
    ∃ k, tenths (Temperature.windChill t ⟨some v, u⟩) = some k ∧
      |(k : ℝ) / 10 - windChillOf ((n : ℝ) / 10) ((kmhExact v u : Rat) : ℝ)| ≤ 52 / 1000 := by
  have h3' := (C29_speeds v u).mp h3
  obtain ⟨r1, r2⟩ := kmh_range h3' h4
  obtain ⟨s, a1, a2, a3, a4⟩ := windChill_eq ht h1 h2 h3' h4
  refine ⟨_, a4, ?_⟩
  have b := windRounded_value hp h1 h2 a1 a2 a3 r1 r2
  obtain ⟨p1, p2, p3⟩ := power_near hp a1 a2 a3 r1 r2
  have hw : |windChillOf ((n : ℝ) / 10) ((kmhExact v u : Rat) : ℝ)| ≤ 1000 := by
    unfold windChillOf
    have hn : |(n : ℝ) / 10| ≤ 100 := by
      have : |(n : ℝ)| ≤ 1000 := by
        have : |n| ≤ 1000 := by rw [abs_le]; omega
        exact_mod_cast this
      rw [abs_div]; norm_num; linarith
    rw [mul_assoc (0.3965 : ℝ)]
    generalize ((kmhExact v u : Rat) : ℝ) ^ (0.16 : ℝ) = y at *
    have g : |(n : ℝ) / 10 * y| ≤ 100 * 4 := by
      rw [abs_mul]
      exact mul_le_mul hn (by rw [abs_of_nonneg (by linarith)]; exact p3) (abs_nonneg _) (by norm_num)
    have h5 := abs_le.mp hn
    have h6 := abs_le.mp g
    generalize (n : ℝ) / 10 * y = z at *
    rw [abs_le]
    norm_num at *
    constructor <;> linarith
  have near := tenthsOf_near (x := windRounded (celsius n) (FloatSem.pow s (f64 (16 / 100))))
    (y := windRounded (celsius n) (FloatSem.pow s (f64 (16 / 100)))) (e := 0) (by simp) (by
      have b' := abs_le.mp b
      have hw' := abs_le.mp hw
      have : |((windRounded (celsius n) (FloatSem.pow s (f64 (16 / 100))) : Rat) : ℝ)| ≤ 6000 := by
        rw [abs_le]
        norm_num at *
        constructor <;> linarith
      exact_mod_cast this) (by norm_num)
  have near' := Rat.cast_le (K := ℝ) |>.mpr near
  push_cast at near'
  have d := abs_sub_le ((tenthsOf (windRounded (celsius n) (FloatSem.pow s (f64 (16 / 100)))) : ℝ) / 10)
    ((windRounded (celsius n) (FloatSem.pow s (f64 (16 / 100))) : Rat) : ℝ)
    (windChillOf ((n : ℝ) / 10) ((kmhExact v u : Rat) : ℝ))
  norm_num at *
  linarith

/-- C140: what C28, C29 and C92 assume of `std::pow` follows from the one assumption made here. -/
theorem C140_assumption (hp : PowNear) : PowTen ∧ PowSmall := ⟨hp.powTen, hp.powSmall⟩

/-! ### C141 -/

/-- The heat index grows by at least 0.7 degrees with each degree of the temperature. -/
theorem heatPolynomial_grows {t u r : Rat} (ht : 27 ≤ t) (h : t ≤ u) (h3 : 40 ≤ r) (h4 : r ≤ 100) :
    heatPolynomial t r + (u - t) * (7 / 10) ≤ heatPolynomial u r := by
  have e : heatPolynomial u r - heatPolynomial t r = (u - t) * (1.61139411 + -0.14611605 * r + 0.00072546 * r ^ 2 +
      (u + t) * (-0.012308094 + 0.002211732 * r + -0.000003582 * r ^ 2)) := by
    unfold heatPolynomial; ring
  have g : 0 ≤ -0.012308094 + 0.002211732 * r + -0.000003582 * r ^ 2 := by
    norm_num
    nlinarith
  have b : 7 / 10 ≤ 1.61139411 + -0.14611605 * r + 0.00072546 * r ^ 2 +
      (u + t) * (-0.012308094 + 0.002211732 * r + -0.000003582 * r ^ 2) := by
    have b1 := mul_le_mul_of_nonneg_right (show 54 ≤ u + t by linarith) g
    have sq : 80 * r - 1600 ≤ r ^ 2 := by nlinarith [sq_nonneg (r - 40)]
    norm_num at *
    linarith
  have := mul_le_mul_of_nonneg_left b (show 0 ≤ u - t by linarith)
  linarith

/-- The heat index grows by at least 0.04 degrees with each percent of the humidity. -/
theorem heatPolynomial_humid {t r s : Rat} (ht : 27 ≤ t) (h3 : 40 ≤ r) (h : r ≤ s) (h4 : s ≤ 100) :
    heatPolynomial t r + (s - r) * (4 / 100) ≤ heatPolynomial t s := by
  have e : heatPolynomial t s - heatPolynomial t r = (s - r) * (2.33854883889 + -0.14611605 * t + 0.002211732 * t ^ 2 +
      (s + r) * (-0.0164248277778 + 0.00072546 * t + -0.000003582 * t ^ 2)) := by
    unfold heatPolynomial; ring
  have sq : 54 * t - 729 ≤ t ^ 2 := by nlinarith [sq_nonneg (t - 27)]
  have b1 : 4 / 100 ≤ 2.33854883889 + -0.14611605 * t + 0.002211732 * t ^ 2 +
      80 * (-0.0164248277778 + 0.00072546 * t + -0.000003582 * t ^ 2) := by
    norm_num at *
    linarith
  have b2 : 4 / 100 ≤ 2.33854883889 + -0.14611605 * t + 0.002211732 * t ^ 2 +
      200 * (-0.0164248277778 + 0.00072546 * t + -0.000003582 * t ^ 2) := by
    norm_num at *
    linarith
  have b : 4 / 100 ≤ 2.33854883889 + -0.14611605 * t + 0.002211732 * t ^ 2 +
      (s + r) * (-0.0164248277778 + 0.00072546 * t + -0.000003582 * t ^ 2) := by
    generalize 2.33854883889 + -0.14611605 * t + 0.002211732 * t ^ 2 = x at *
    generalize -0.0164248277778 + 0.00072546 * t + -0.000003582 * t ^ 2 = y at *
    have c1 := mul_le_mul_of_nonneg_left b1 (show 0 ≤ 200 - (s + r) by linarith)
    have c2 := mul_le_mul_of_nonneg_left b2 (show 0 ≤ s + r - 80 by linarith)
    linarith
  have := mul_le_mul_of_nonneg_left b (show 0 ≤ s - r by linarith)
  linarith

/-- C141: for the same humidity a higher temperature does not give a lower heat index. -/
theorem C141_heat_index_temperature (t u : Temperature) (n m k l : Int) (r : Rat) (ht : tenths t = some n)
    (hu : tenths u = some m) (h1 : 270 ≤ n) (h : n ≤ m) (h2 : m ≤ 1000) (h3 : 40 ≤ r) (h4 : r ≤ 100)
    (hk : tenths (Temperature.heatIndexRh t r) = some k) (hl : tenths (Temperature.heatIndexRh u r) = some l) :
    k ≤ l := by
  rw [heatIndexRh_eq ht h1 (by omega) h3 h4] at hk
  rw [heatIndexRh_eq hu (by omega) h2 h3 h4] at hl
  obtain rfl := Option.some.inj hk
  obtain rfl := Option.some.inj hl
  rcases eq_or_lt_of_le h with rfl | hlt
  · exact le_refl _
  · apply tenthsOf_le
    have a := abs_le.mp (heatIndexC_value h1 (by omega) h3 h4)
    have b := abs_le.mp (heatIndexC_value (by omega) h2 h3 h4)
    have hn : (270 : Rat) ≤ n := by exact_mod_cast h1
    have hm : (n : Rat) + 1 ≤ m := by exact_mod_cast hlt
    have c := heatPolynomial_grows (t := (n : Rat) / 10) (u := (m : Rat) / 10) (by linarith) (by linarith) h3 h4
    norm_num at *
    linarith

theorem celsius_low {n : Int} (h : 270 ≤ n) : 27 ≤ celsius n := by
  have a : celsius 270 ≤ celsius n := value_mono h
  have b : celsius 270 = 27 := by
    have := whole_exact (m := 27) (by norm_num)
    unfold celsius
    simpa using this
  linarith

theorem heatIndexC_humid {n : Int} {r s : Rat} (h1 : 270 ≤ n) (h2 : n ≤ 1000) (h3 : 40 ≤ r)
    (h : r + 1 / 1000 ≤ s) (h4 : s ≤ 100) :
    Temperature.heatIndexC (celsius n) r ≤ Temperature.heatIndexC (celsius n) s := by
  have hn : |n| ≤ 1000 := by rw [abs_le]; omega
  have cb := celsius_bound hn
  have a := abs_le.mp (heatIndexC_near (r := r) cb (by rw [abs_le]; constructor <;> linarith))
  have b := abs_le.mp (heatIndexC_near (r := s) cb (by rw [abs_le]; constructor <;> linarith))
  have c := heatPolynomial_humid (celsius_low h1) h3 (by linarith) h4
  norm_num at *
  linarith

/-- C141: for the same temperature a humidity higher by at least 0.001 percent does not give a lower heat index; any
higher humidity does not give a heat index lower by more than the last digit. -/
theorem C141_heat_index_humidity (t : Temperature) (n k l : Int) (r s : Rat) (ht : tenths t = some n)
    (h1 : 270 ≤ n) (h2 : n ≤ 1000) (h3 : 40 ≤ r) (h : r ≤ s) (h4 : s ≤ 100)
    (hk : tenths (Temperature.heatIndexRh t r) = some k) (hl : tenths (Temperature.heatIndexRh t s) = some l) :
    (r + 1 / 1000 ≤ s → k ≤ l) ∧ k ≤ l + 1 := by
  constructor
  · intro h'
    rw [heatIndexRh_eq ht h1 h2 h3 (by linarith)] at hk
    rw [heatIndexRh_eq ht h1 h2 (by linarith) h4] at hl
    obtain rfl := Option.some.inj hk
    obtain rfl := Option.some.inj hl
    exact tenthsOf_le (heatIndexC_humid h1 h2 h3 h' h4)
  · obtain ⟨k', a1, a2⟩ := C140_heat_index t n r ht h1 h2 h3 (by linarith)
    obtain ⟨l', b1, b2⟩ := C140_heat_index t n s ht h1 h2 (by linarith) h4
    rw [hk] at a1
    rw [hl] at b1
    obtain rfl := Option.some.inj a1
    obtain rfl := Option.some.inj b1
    have hn1 : (270 : Rat) ≤ n := by exact_mod_cast h1
    have hn2 : (n : Rat) ≤ 1000 := by exact_mod_cast h2
    have c := heatPolynomial_humid (t := (n : Rat) / 10) (by linarith) h3 h h4
    have d := abs_le.mp (heatPolynomial_near (t := (n : Rat) / 10) (r := r) (by linarith) (by linarith))
    have e := abs_le.mp (heatPolynomial_near (t := (n : Rat) / 10) (r := s) (by linarith) (by linarith))
    have f := abs_le.mp a2
    have g := abs_le.mp b2
    have : (k : Rat) < l + 2 := by norm_num at *; linarith
    have : k < l + 2 := by exact_mod_cast this
    omega

/-- The humidity for dew points at least a tenth of a degree apart. -/
theorem humidity_gap (hp : PowTen) {n m k : Int} (hn : |n| ≤ 1000) (hm : |m| ≤ 1000) (hk : |k| ≤ 1000) (h : m < k)
    (hkn : k ≤ n)
    (h40 : 40 ≤ humidity (Temperature.vapourPressure (celsius m)) (Temperature.vapourPressure (celsius n))) :
    humidity (Temperature.vapourPressure (celsius m)) (Temperature.vapourPressure (celsius n)) + 1 / 1000 ≤
      humidity (Temperature.vapourPressure (celsius k)) (Temperature.vapourPressure (celsius n)) := by
  have b1 := vapour_bounds hp (celsius_bound hm)
  have b2 := vapour_bounds hp (celsius_bound hk)
  have b3 := vapour_bounds hp (celsius_bound hn)
  have g := vapour_grows hp (celsius_bound hm) (celsius_bound hk) (by
    have c1 := (abs_le.mp (celsius_near hm)).2
    have c2 := (abs_le.mp (celsius_near hk)).1
    have : (m : Rat) + 1 ≤ k := by exact_mod_cast h
    norm_num at *
    linarith)
  have le1 : Temperature.vapourPressure (celsius k) ≤ Temperature.vapourPressure (celsius n) :=
    vapour_le hp hk hn hkn
  have n1 := abs_le.mp (humidity_near b1.1 b3.1 b1.2 b3.2 (by
    have : 0 < Temperature.vapourPressure (celsius m) := lt_of_lt_of_le (by norm_num) b1.1
    linarith))
  have n2 := abs_le.mp (humidity_near b2.1 b3.1 b2.2 b3.2 le1)
  unfold humidity at *
  have t0 : 0 < Temperature.vapourPressure (celsius n) := lt_of_lt_of_le (by norm_num) b3.1
  have r1 : Temperature.vapourPressure (celsius m) / Temperature.vapourPressure (celsius n) * (1 + 9 / 10000) ≤
      Temperature.vapourPressure (celsius k) / Temperature.vapourPressure (celsius n) := by
    rw [div_mul_eq_mul_div]
    exact div_le_div_of_nonneg_right g t0.le
  have r2 : Temperature.vapourPressure (celsius k) / Temperature.vapourPressure (celsius n) ≤ 1 := by
    rw [div_le_one t0]; exact le1
  generalize Temperature.vapourPressure (celsius m) / Temperature.vapourPressure (celsius n) = x at *
  generalize Temperature.vapourPressure (celsius k) / Temperature.vapourPressure (celsius n) = y at *
  generalize f64 (f64 (100 * Temperature.vapourPressure (celsius m)) / Temperature.vapourPressure (celsius n)) = p at *
  generalize f64 (f64 (100 * Temperature.vapourPressure (celsius k)) / Temperature.vapourPressure (celsius n)) = q at *
  have x1 : x ≤ 1 := by
    by_contra hc
    push Not at hc
    linarith
  have x0 : 0 ≤ x := by
    by_contra hc
    push Not at hc
    have hp0 : p ≤ 0 := by norm_num at *; linarith
    have := FloatSem.f32_mono _ _ hp0
    rw [f32_zero] at this
    linarith
  have y0 : 0 ≤ y := le_trans (by positivity) r1
  have pb : |p| ≤ 101 := by rw [abs_le]; norm_num at *; constructor <;> linarith
  have qb : |q| ≤ 101 := by rw [abs_le]; norm_num at *; constructor <;> linarith
  have f1 := abs_le.mp (f32_near 101 (near_self p) pb (by norm_num))
  have f2 := abs_le.mp (f32_near 101 (near_self q) qb (by norm_num))
  norm_num at *
  linarith

/-- C141: for the same temperature a higher dew point does not give a lower heat index. -/
theorem C141_heat_index_dew_point (hp : PowTen) (t d e : Temperature) (n m k x y : Int) (ht : tenths t = some n)
    (hd : tenths d = some m) (he : tenths e = some k) (hn : |n| ≤ 1000) (hm : |m| ≤ 1000) (hk : |k| ≤ 1000)
    (h : m ≤ k) (hx : tenths (Temperature.heatIndex t d) = some x) (hy : tenths (Temperature.heatIndex t e) = some y) :
    x ≤ y := by
  obtain ⟨r, r1, r2, r3⟩ := C28_range hp t d n m ht hd hn hm
  obtain ⟨s, s1, s2, s3⟩ := C28_range hp t e n k ht he hn hk
  rw [C140_heat_index_dew_point t d r r1] at hx
  rw [C140_heat_index_dew_point t e s s1] at hy
  have hmono := C28_mono hp t d e n m k ht hd he hn hm hk h r s r1 s1
  have bound : ∀ m, tenths t = some m → |m| ≤ 1000 := by
    intro m hm; rw [ht] at hm; obtain rfl := Option.some.inj hm; exact hn
  have rep : ∀ {w : Temperature} {z : Int}, tenths w = some z → w.isReported = true := by
    rintro ⟨_ | v, f, p⟩ z hz
    · simp [tenths] at hz
    · rfl
  obtain ⟨n', e1, e2, e3, -⟩ := (C29_heat_index t r bound).mp (rep hx)
  rw [ht] at e1
  obtain rfl := Option.some.inj e1
  have hn1000 : n ≤ 1000 := (abs_le.mp hn).2
  rcases eq_or_lt_of_le hmono with rfl | hlt
  · rw [hx] at hy
    exact le_of_eq (Option.some.inj hy)
  · refine (C141_heat_index_humidity t n x y r s ht e2 hn1000 e3 hmono s3 hx hy).1 ?_
    have hmn : m < n := by
      by_contra hc
      have := C28_saturated hp t d n m ht hd hn hm (by omega)
      rw [r1] at this
      have := Option.some.inj this
      linarith
    rw [humidity_eq ht hd hn hm, if_neg (by omega)] at r1
    obtain rfl := Option.some.inj r1
    rcases le_or_gt k n with hkn | hkn
    · rw [humidity_eq ht he hn hk, if_neg (by omega)] at s1
      obtain rfl := Option.some.inj s1
      have hmk : m < k := by
        rcases eq_or_lt_of_le h with rfl | h'
        · exact absurd hlt (lt_irrefl _)
        · exact h'
      exact humidity_gap hp hn hm hk hmk hkn e3
    · have g := humidity_gap hp hn hm hn hmn (le_refl _) e3
      have s4 := C28_saturated hp t t n n ht ht hn hn (le_refl _)
      rw [humidity_eq ht ht hn hn, if_neg (by omega)] at s4
      have s5 := C28_saturated hp t e n k ht he hn hk (by omega)
      rw [s1] at s5
      obtain rfl := Option.some.inj s5
      have s6 : humidity (Temperature.vapourPressure (celsius n)) (Temperature.vapourPressure (celsius n)) = 100 :=
        Option.some.inj s4
      rw [s6] at g
      exact g

/-- C141: the heat index is at most 0.4 degrees below the temperature, and not below it from 45 percent on. -/
theorem C141_heat_index_floor (t : Temperature) (n k : Int) (r : Rat) (ht : tenths t = some n) (h1 : 270 ≤ n)
    (h2 : n ≤ 1000) (h3 : 40 ≤ r) (h4 : r ≤ 100) (hk : tenths (Temperature.heatIndexRh t r) = some k) :
    n - 4 ≤ k ∧ (45 ≤ r → n ≤ k) := by
  obtain ⟨k', a1, a2⟩ := C140_heat_index t n r ht h1 h2 h3 h4
  rw [hk] at a1
  obtain rfl := Option.some.inj a1
  have hn1 : (270 : Rat) ≤ n := by exact_mod_cast h1
  have hn2 : (n : Rat) ≤ 1000 := by exact_mod_cast h2
  have d := abs_le.mp (heatPolynomial_near (t := (n : Rat) / 10) (r := r) (by linarith) (by linarith))
  have f := abs_le.mp a2
  have low : ∀ x, (n : Rat) / 10 = x →
      x - 0.3943 ≤ heatPolynomial x 40 ∧ x + 0.0288 ≤ heatPolynomial x 45 := by
    intro x _
    unfold heatPolynomial
    constructor <;> norm_num <;> nlinarith [sq_nonneg (x - 28.91), sq_nonneg (x - 28.1)]
  obtain ⟨l1, l2⟩ := low _ rfl
  constructor
  · have c := heatPolynomial_humid (t := (n : Rat) / 10) (by linarith) (le_refl 40) h3 h4
    have c0 : 0 ≤ (r - 40) * (4 / 100 : Rat) := by linarith
    have : (n : Rat) < k + 5 := by norm_num at *; linarith
    have : n < k + 5 := by exact_mod_cast this
    omega
  · intro h5
    have c := heatPolynomial_humid (t := (n : Rat) / 10) (by linarith) (by norm_num) h5 h4
    have c0 : 0 ≤ (r - 45) * (4 / 100 : Rat) := by linarith
    have : (n : Rat) < k + 1 := by norm_num at *; linarith
    have : n < k + 1 := by exact_mod_cast this
    omega

/-- C141: the wind chill is below the temperature. -/
theorem C141_wind_chill_below (hp : PowNear) (t : Temperature) (n k : Int) (v : Nat) (u : SpeedUnit)
    (ht : tenths t = some n) (h1 : -1000 ≤ n) (h2 : n ≤ 100) (h3 : 48 / 10 ≤ kmhExact v u) (h4 : v < 1000)
    (hk : tenths (Temperature.windChill t ⟨some v, u⟩) = some k) : k < n := by
  obtain ⟨k', a1, a2⟩ := C140_wind_chill hp t n v u ht h1 h2 h3 h4
  rw [hk] at a1
  obtain rfl := Option.some.inj a1
  obtain ⟨r1, -⟩ := kmh_range ((C29_speeds v u).mp h3) h4
  have f := abs_le.mp a2
  unfold windChillOf at f
  have hq : (4.82 : ℝ) ≤ ((kmhExact v u : Rat) : ℝ) := by
    have := Rat.cast_le (K := ℝ) |>.mpr r1
    push_cast at this
    norm_num at this ⊢
    exact this
  have power : (1.28 : ℝ) ≤ ((kmhExact v u : Rat) : ℝ) ^ (0.16 : ℝ) := by
    have e : (1.28 : ℝ) ^ (25 / 4 : ℝ) ≤ 4.82 := by
      have a : ((1.28 : ℝ) ^ (25 / 4 : ℝ)) ^ (4 : ℝ) ≤ (4.82 : ℝ) ^ (4 : ℝ) := by
        rw [← Real.rpow_mul (by norm_num), show (25 / 4 * 4 : ℝ) = ((25 : ℕ) : ℝ) by norm_num, Real.rpow_natCast,
          show (4 : ℝ) = ((4 : ℕ) : ℝ) by norm_num, Real.rpow_natCast]
        norm_num
      exact (Real.rpow_le_rpow_iff (Real.rpow_nonneg (by norm_num) _) (by norm_num) (by norm_num)).mp a
    have b := Real.rpow_le_rpow (Real.rpow_nonneg (by norm_num) _) (le_trans e hq) (by norm_num : (0 : ℝ) ≤ 0.16)
    rw [← Real.rpow_mul (by norm_num), show (25 / 4 * 0.16 : ℝ) = 1 by norm_num, Real.rpow_one] at b
    exact b
  have hn : (n : ℝ) / 10 ≤ 10 := by
    have : (n : ℝ) ≤ 100 := by exact_mod_cast h2
    linarith
  generalize ((kmhExact v u : Rat) : ℝ) ^ (0.16 : ℝ) = y at *
  have m := mul_nonneg (show (0 : ℝ) ≤ 10 - (n : ℝ) / 10 by linarith) (show (0 : ℝ) ≤ 0.3965 * y - 0.3785 by
    norm_num at *; linarith)
  have : (k : ℝ) < n := by
    norm_num at f m power
    nlinarith [f.2]
  exact_mod_cast this

/-- C141: for the same wind a lower temperature does not give a higher wind chill temperature. -/
theorem C141_wind_chill_temperature (hp : PowNear) (t u : Temperature) (n m k l : Int) (v : Nat) (w : SpeedUnit)
    (ht : tenths t = some n) (hu : tenths u = some m) (h1 : -1000 ≤ n) (h : n ≤ m) (h2 : m ≤ 100)
    (h3 : 48 / 10 ≤ kmhExact v w) (h4 : v < 1000) (hk : tenths (Temperature.windChill t ⟨some v, w⟩) = some k)
    (hl : tenths (Temperature.windChill u ⟨some v, w⟩) = some l) : k ≤ l := by
  rcases eq_or_lt_of_le h with rfl | hlt
  · have e : Temperature.windChill t ⟨some v, w⟩ = Temperature.windChill u ⟨some v, w⟩ := by
      unfold Temperature.windChill
      rw [temperature_eq ht (by rw [abs_le]; omega), temperature_eq hu (by rw [abs_le]; omega)]
    rw [e, hl] at hk
    exact le_of_eq (Option.some.inj hk).symm
  obtain ⟨k', a1, a2⟩ := C140_wind_chill hp t n v w ht h1 (by omega) h3 h4
  obtain ⟨l', b1, b2⟩ := C140_wind_chill hp u m v w hu (by omega) h2 h3 h4
  rw [hk] at a1
  rw [hl] at b1
  obtain rfl := Option.some.inj a1
  obtain rfl := Option.some.inj b1
  obtain ⟨r1, r2⟩ := kmh_range ((C29_speeds v w).mp h3) h4
  have f := abs_le.mp a2
  have g := abs_le.mp b2
  unfold windChillOf at f g
  have hq : (1 : ℝ) ≤ ((kmhExact v w : Rat) : ℝ) := by
    have : 1 ≤ kmhExact v w := by linarith
    exact_mod_cast this
  have power := Real.one_le_rpow hq (show (0 : ℝ) ≤ 0.16 by norm_num)
  generalize ((kmhExact v w : Rat) : ℝ) ^ (0.16 : ℝ) = y at *
  have hm : (n : ℝ) + 1 ≤ m := by exact_mod_cast hlt
  have : (k : ℝ) < l + 1 := by
    norm_num at *
    nlinarith [f.2, g.1, mul_nonneg (show (0 : ℝ) ≤ m - n - 1 by linarith) (show (0 : ℝ) ≤ y - 1 by linarith)]
  have : k < l + 1 := by exact_mod_cast this
  omega

/-- Wind speeds of the same unit differ by at least one kilometre per hour. -/
theorem kmh_step {v w : Nat} {u : SpeedUnit} (h : v < w) : kmhExact v u + 1 ≤ kmhExact w u := by
  have e : (v : Rat) + 1 ≤ w := by exact_mod_cast h
  cases u <;> simp only [kmhExact, mpsPer] <;> generalize (v : Rat) = q at * <;> generalize (w : Rat) = p at * <;>
    norm_num at * <;> linarith

/-- C141: for the same temperature a stronger wind does not give a higher wind chill temperature. -/
theorem C141_wind_chill_wind (hp : PowNear) (t : Temperature) (n k l : Int) (v w : Nat) (u : SpeedUnit)
    (ht : tenths t = some n) (h1 : -1000 ≤ n) (h2 : n ≤ 100) (h3 : 48 / 10 ≤ kmhExact v u) (h : v ≤ w)
    (h4 : w < 1000) (hk : tenths (Temperature.windChill t ⟨some v, u⟩) = some k)
    (hl : tenths (Temperature.windChill t ⟨some w, u⟩) = some l) : l ≤ k := by
  rcases eq_or_lt_of_le h with rfl | hlt
  · rw [hk] at hl
    exact le_of_eq (Option.some.inj hl).symm
  have h3' := (C29_speeds v u).mp h3
  obtain ⟨r1, r2⟩ := kmh_range h3' (show v < 1000 by omega)
  obtain ⟨s1, s2⟩ := kmh_range (u := u) (show leastSpeed u ≤ w by omega) h4
  obtain ⟨s, a1, a2, a3, a4⟩ := windChill_eq ht h1 h2 h3' (show v < 1000 by omega)
  obtain ⟨q, b1, b2, b3, b4⟩ := windChill_eq ht h1 h2 (show leastSpeed u ≤ w by omega) h4
  rw [hk] at a4
  rw [hl] at b4
  obtain rfl := Option.some.inj a4
  obtain rfl := Option.some.inj b4
  apply tenthsOf_le
  have step := kmh_step (u := u) hlt
  have hsq : s ≤ q * (1 - 1 / 5000) := by
    have a := (abs_le.mp a1).2
    have b := (abs_le.mp b1).1
    linarith
  have hs4 : (4 : ℝ) ≤ (s : ℝ) := by exact_mod_cast a2
  have hq4 : (4 : ℝ) ≤ (q : ℝ) := by exact_mod_cast b2
  have hsq' : (s : ℝ) ≤ (q : ℝ) * (1 + -(1 / 5000)) := by
    have := Rat.cast_le (K := ℝ) |>.mpr hsq
    push_cast at this
    linarith
  have e1 : (s : ℝ) ^ (0.16 : ℝ) ≤ (q : ℝ) ^ (0.16 : ℝ) * (1 + 0.16 * -(1 / 5000)) := by
    have g := Real.rpow_le_rpow (by linarith) hsq' (show (0 : ℝ) ≤ 0.16 by norm_num)
    rw [Real.mul_rpow (by linarith) (by norm_num)] at g
    exact le_trans g (mul_le_mul_of_nonneg_left
      (rpow_one_add_le_one_add_mul_self (by norm_num) (by norm_num) (by norm_num)) (Real.rpow_nonneg (by linarith) _))
  have p1 := abs_le.mp (hp.sixteen (by linarith) a3)
  have p2 := abs_le.mp (hp.sixteen (by linarith) b3)
  have c1 := rpow_sixteen_le (v := (s : ℝ)) (by linarith) (by exact_mod_cast a3)
  have c2 := rpow_sixteen_le (v := (q : ℝ)) (by linarith) (by exact_mod_cast b3)
  have d1 : ((FloatSem.pow s (f64 (16 / 100)) : Rat) : ℝ) + 3 / 10 ^ 5 ≤
      ((FloatSem.pow q (f64 (16 / 100)) : Rat) : ℝ) ∧ 0 ≤ ((FloatSem.pow s (f64 (16 / 100)) : Rat) : ℝ) ∧
      ((FloatSem.pow q (f64 (16 / 100)) : Rat) : ℝ) ≤ 5 := by
    generalize ((FloatSem.pow s (f64 (16 / 100)) : Rat) : ℝ) = x at *
    generalize ((FloatSem.pow q (f64 (16 / 100)) : Rat) : ℝ) = y at *
    generalize (s : ℝ) ^ (0.16 : ℝ) = a at *
    generalize (q : ℝ) ^ (0.16 : ℝ) = b at *
    norm_num at *
    refine ⟨?_, ?_, ?_⟩ <;> linarith
  have d2 : FloatSem.pow s (f64 (16 / 100)) + 3 / 10 ^ 5 ≤ FloatSem.pow q (f64 (16 / 100)) := by
    rw [← Rat.cast_le (K := ℝ)]
    push_cast
    exact d1.1
  have d3 : 0 ≤ FloatSem.pow s (f64 (16 / 100)) := by exact_mod_cast d1.2.1
  have d4 : FloatSem.pow q (f64 (16 / 100)) ≤ 5 := by exact_mod_cast d1.2.2
  have hn : |n| ≤ 1000 := by rw [abs_le]; omega
  have cb := celsius_bound hn
  have ch : celsius n ≤ 10 + 1 / 100000 := by
    have a := (abs_le.mp (celsius_near hn)).2
    have : (n : Rat) ≤ 100 := by exact_mod_cast h2
    linarith
  clear p1 p2 c1 c2 d1 e1 hk hl
  generalize FloatSem.pow s (f64 (16 / 100)) = x at *
  generalize FloatSem.pow q (f64 (16 / 100)) = y at *
  have g1 := abs_le.mp (windRounded_near (p := x) cb (by rw [abs_le]; norm_num at *; constructor <;> linarith))
  have g2 := abs_le.mp (windRounded_near (p := y) cb (by rw [abs_le]; norm_num at *; constructor <;> linarith))
  have e : windFormula (celsius n) y = windFormula (celsius n) x - (y - x) * (11.37 - 0.3965 * celsius n) := by
    unfold windFormula; ring
  rw [e] at g2
  have m := mul_le_mul (show (3 / 10 ^ 5 : Rat) ≤ y - x by linarith)
    (show (7 : Rat) ≤ 11.37 - 0.3965 * celsius n by norm_num at *; linarith) (by norm_num) (by norm_num at *; linarith)
  generalize (y - x) * (11.37 - 0.3965 * celsius n) = z at *
  norm_num at *
  linarith

end Metaf.Props

/-! ### The assumption can be met, and examples -/

namespace Metaf.Props

open Metaf.Spec (heatIndexOf windChillOf humidityOf)

/-- Rounding of IEEE 754 with a `pow` that gives a rational number near the power. -/
@[reducible] noncomputable def ieeePow : FloatIeee :=
  { ieee with
    pow := fun x y =>
      if h : 0 < (x : ℝ) ^ (y : ℝ) then
        Classical.choose (exists_rat_btwn (show (x : ℝ) ^ (y : ℝ) < (x : ℝ) ^ (y : ℝ) + (x : ℝ) ^ (y : ℝ) / 2 ^ 40 by
          have : 0 < (x : ℝ) ^ (y : ℝ) / 2 ^ 40 := by positivity
          linarith))
      else 0 }

attribute [local instance] ieeePow

theorem powNear_ieee : PowNear := by
  intro x y h1 _ _ _
  have hx : (0 : ℝ) < x := by
    have : 0 < x := by linarith
    exact_mod_cast this
  have hpos : 0 < (x : ℝ) ^ (y : ℝ) := Real.rpow_pos_of_pos hx _
  change |(((if h : 0 < (x : ℝ) ^ (y : ℝ) then _ else 0 : Rat)) : ℝ) - _| ≤ _
  rw [dif_pos hpos]
  have c := Classical.choose_spec (exists_rat_btwn (show (x : ℝ) ^ (y : ℝ) <
    (x : ℝ) ^ (y : ℝ) + (x : ℝ) ^ (y : ℝ) / 2 ^ 40 by
      have : 0 < (x : ℝ) ^ (y : ℝ) / 2 ^ 40 := by positivity
      linarith))
  rw [abs_le]
  constructor <;> linarith [c.1, c.2]

/-- Example: minus 5 degrees and 20 knots. -/
example : ∃ k, tenths (Temperature.windChill ⟨some (-5), true, false⟩ ⟨some 20, .KNOTS⟩) = some k ∧ k < -50 := by
  obtain ⟨k, h, -⟩ := C140_wind_chill powNear_ieee ⟨some (-5), true, false⟩ (-50) 20 .KNOTS rfl (by norm_num)
    (by norm_num) (by norm_num [kmhExact, mpsPer]) (by norm_num)
  exact ⟨k, h, C141_wind_chill_below powNear_ieee _ (-50) k 20 .KNOTS rfl (by norm_num) (by norm_num)
    (by norm_num [kmhExact, mpsPer]) (by norm_num) h⟩

/-- Example: 30.5 degrees with the dew point 22 degrees. -/
example : ∃ r, Temperature.relativeHumidity ⟨some 305, false, true⟩ ⟨some 22, false, false⟩ = some r ∧
    |(r : ℝ) - humidityOf ((305 : Int) / 10) ((220 : Int) / 10)| ≤ 1 / 100 :=
  C140_humidity powNear_ieee _ _ 305 220 rfl rfl (by norm_num) (by norm_num) (by norm_num)

end Metaf.Props

namespace Metaf.Props

open Metaf.Spec (heatIndexOf)

attribute [local instance] ieee

/-- Example: 32 degrees and 70 percent feel like 40.4 degrees (the published table says 105 F); 28.9 degrees and 40
percent feel like 28.5 degrees. -/
example : tenths (Temperature.heatIndexRh ⟨some 32, false, false⟩ 70) = some 404 ∧
    tenths (Temperature.heatIndexRh ⟨some 289, false, true⟩ 40) = some 285 := by
  constructor <;> kernel_rfl

end Metaf.Props
