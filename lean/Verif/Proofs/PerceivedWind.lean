import Verif.Proofs.PerceivedPow

/-!
The wind chill and the relative humidity of the code are near the published formulas.
-/

namespace Metaf.Props

open Metaf.Spec (windChillOf saturation humidityOf)

set_option linter.unusedSectionVars false

variable [FloatIeee]

/-! ### Wind chill -/

/-- The formula of the code in exact arithmetic, for a temperature and the power of the wind speed. -/
def windFormula (t p : Rat) : Rat := 13.12 + 0.6215 * t - 11.37 * p + 0.3965 * t * p

open Temperature in
/-- The formula of the code with its rounding. -/
def windRounded (t p : Rat) : Rat :=
  addD (f64 (addD (f64 (1312 / 100)) (mulD (f64 (6215 / 10000)) t) - mulD (f64 (1137 / 100)) p))
    (mulD (mulD (f64 (3965 / 10000)) t) p)

theorem windRounded_near {t p : Rat} (ht : |t| ≤ 101) (hp : |p| ≤ 5) :
    |windRounded t p - windFormula t p| ≤ 1 / 10 ^ 9 := by
  have k1 := Approx.const (c := 1312 / 100) (m := 14) (by norm_num [abs_le]) (by norm_num)
  have k2 := (Approx.const (c := 6215 / 10000) (m := 1) (by norm_num [abs_le]) (by norm_num)).mul ht (by norm_num)
  have k3 := (Approx.const (c := 1137 / 100) (m := 12) (by norm_num [abs_le]) (by norm_num)).mul hp (by norm_num)
  have k4 := ((Approx.const (c := 3965 / 10000) (m := 1) (by norm_num [abs_le]) (by norm_num)).mul ht
    (by norm_num)).mul hp (by norm_num)
  have k5 := k1.add k2 (by norm_num)
  have k6 : Approx (f64 (Temperature.addD (f64 (1312 / 100)) (Temperature.mulD (f64 (6215 / 10000)) t) -
      Temperature.mulD (f64 (1137 / 100)) p)) (1312 / 100 + 6215 / 10000 * t - 1137 / 100 * p) (1 / 10 ^ 10) 200 := by
    have a := abs_le.mp k5.1
    have b := abs_le.mp k3.1
    have a' := abs_le.mp k5.2
    have b' := abs_le.mp k3.2
    have c : |1312 / 100 + 6215 / 10000 * t - 1137 / 100 * p| ≤ 200 := by
      rw [abs_le]; constructor <;> linarith
    refine ⟨?_, c⟩
    generalize Temperature.addD (f64 (1312 / 100)) (Temperature.mulD (f64 (6215 / 10000)) t) = x at *
    generalize Temperature.mulD (f64 (1137 / 100)) p = y at *
    refine le_trans (f64_near (y := 1312 / 100 + 6215 / 10000 * t - 1137 / 100 * p) (e := 1 / 10 ^ 11) 200 ?_ c
      (by norm_num)) (by norm_num)
    rw [abs_le]
    norm_num at *
    constructor <;> linarith
  have s := k6.add k4 (by norm_num)
  have e : windFormula t p = 1312 / 100 + 6215 / 10000 * t - 1137 / 100 * p + 3965 / 10000 * t * p := by
    unfold windFormula; norm_num
  rw [e]
  exact le_trans s.1 (by norm_num)

/-- The speeds of the reports in kilometres per hour. -/
theorem kmh_range {v : Nat} {u : SpeedUnit} (h1 : leastSpeed u ≤ v) (h2 : v < 1000) :
    482 / 100 ≤ kmhExact v u ∧ kmhExact v u ≤ 3600 := by
  refine ⟨kmh_high v u h1, ?_⟩
  have e : (v : Rat) + 1 ≤ 1000 := by exact_mod_cast h2
  cases u <;> simp only [kmhExact, mpsPer] <;> generalize (v : Rat) = q at * <;> norm_num at * <;> linarith

theorem windChill_eq {t : Temperature} {n : Int} {v : Nat} {u : SpeedUnit} (ht : tenths t = some n)
    (h1 : -1000 ≤ n) (h2 : n ≤ 100) (h3 : leastSpeed u ≤ v) (h4 : v < 1000) :
    ∃ s, |s - kmhExact v u| ≤ kmhExact v u / 40000 ∧ 4 ≤ s ∧ s ≤ 4000 ∧
      tenths (Temperature.windChill t ⟨some v, u⟩) =
        some (tenthsOf (windRounded (celsius n) (FloatSem.pow s (f64 (16 / 100))))) := by
  have hn : |n| ≤ 1000 := by rw [abs_le]; omega
  obtain ⟨r1, r2⟩ := kmh_range (u := u) h3 h4
  obtain ⟨s, hs, hw⟩ := C31_speed_value v (by omega) u .KILOMETERS_PER_HOUR
  have hw' : |s - kmhExact v u| ≤ kmhExact v u * (2 / 100000) + 1 / 2 ^ 60 := hw
  have hnear : |s - kmhExact v u| ≤ kmhExact v u / 40000 := by norm_num at *; linarith
  have ab := abs_le.mp hnear
  refine ⟨s, hnear, by linarith [ab.1], by linarith [ab.2], ?_⟩
  have h := (C29_wind_chill t ⟨some v, u⟩
    (by rintro m hm; rw [ht] at hm; obtain rfl := Option.some.inj hm; exact hn)
    (by rintro m hm; obtain rfl := Option.some.inj hm; omega)).mpr
    ⟨n, v, ht, rfl, h2, (C29_speeds v u).mpr h3⟩
  unfold Temperature.windChill at h ⊢
  rw [temperature_eq ht hn] at h ⊢
  simp only [hs] at h ⊢
  split at h
  · simp [Temperature.isReported] at h
  · split at h
    · simp [Temperature.isReported] at h
    · rename_i a b
      rw [if_neg a, if_neg b]
      exact tenths_ofFloat _

/-- The power computed is near the power of the exact wind speed. -/
theorem power_near (hp : PowNear) {s q : Rat} (h1 : |s - q| ≤ q / 40000) (h2 : 4 ≤ s) (h3 : s ≤ 4000)
    (h4 : 482 / 100 ≤ q) (h5 : q ≤ 3600) :
    |((FloatSem.pow s (f64 (16 / 100)) : Rat) : ℝ) - (q : ℝ) ^ (0.16 : ℝ)| ≤ (q : ℝ) ^ (0.16 : ℝ) * (5 / 10 ^ 6) ∧
      1 ≤ (q : ℝ) ^ (0.16 : ℝ) ∧ (q : ℝ) ^ (0.16 : ℝ) ≤ 4 := by
  have a := abs_le.mp (hp.sixteen (by linarith) h3)
  have b := abs_le.mp h1
  have hq : (482 / 100 : ℝ) ≤ (q : ℝ) := by
    have := Rat.cast_le (K := ℝ) |>.mpr h4
    push_cast at this
    exact this
  have hq' : (q : ℝ) ≤ 3600 := by exact_mod_cast h5
  have hs : (4 : ℝ) ≤ (s : ℝ) := by exact_mod_cast h2
  have up : (s : ℝ) ≤ (q : ℝ) * (1 + 1 / 40000) := by
    have : s ≤ q * (1 + 1 / 40000) := by linarith [b.2]
    have := Rat.cast_le (K := ℝ) |>.mpr this
    push_cast at this
    exact this
  have lo : (q : ℝ) ≤ (s : ℝ) * (1 + 1 / 39999) := by
    have : q ≤ s * (1 + 1 / 39999) := by linarith [b.1]
    have := Rat.cast_le (K := ℝ) |>.mpr this
    push_cast at this
    exact this
  have k1 := rpow_le_mul (a := 0.16) (by linarith) (by linarith) (by norm_num) (by norm_num) (by norm_num) up
  have k2 := rpow_le_mul (a := 0.16) (by linarith) (by linarith) (by norm_num) (by norm_num) (by norm_num) lo
  have k3 := rpow_sixteen_le (v := (q : ℝ)) (by linarith) (by linarith)
  refine ⟨?_, k3⟩
  generalize ((FloatSem.pow s (f64 (16 / 100)) : Rat) : ℝ) = p at *
  generalize (s : ℝ) ^ (0.16 : ℝ) = x at *
  generalize (q : ℝ) ^ (0.16 : ℝ) = y at *
  rw [abs_le]
  norm_num at *
  constructor <;> linarith

/-- The value computed for the wind chill, before it is rounded to tenths, is near the published formula. -/
theorem windRounded_value (hp : PowNear) {n : Int} {s q : Rat} (hn1 : -1000 ≤ n) (hn2 : n ≤ 100)
    (h1 : |s - q| ≤ q / 40000) (h2 : 4 ≤ s) (h3 : s ≤ 4000) (h4 : 482 / 100 ≤ q) (h5 : q ≤ 3600) :
    |((windRounded (celsius n) (FloatSem.pow s (f64 (16 / 100))) : Rat) : ℝ) - windChillOf ((n : ℝ) / 10) q| ≤
      12 / 10 ^ 4 := by
  obtain ⟨a, b1, b2⟩ := power_near hp h1 h2 h3 h4 h5
  have hn : |n| ≤ 1000 := by rw [abs_le]; omega
  have a' := abs_le.mp a
  have hpb : |FloatSem.pow s (f64 (16 / 100))| ≤ 5 := by
    have : |((FloatSem.pow s (f64 (16 / 100)) : Rat) : ℝ)| ≤ 5 := by
      rw [abs_le]; constructor <;> linarith [a'.1, a'.2]
    exact_mod_cast this
  have c := windRounded_near (celsius_bound hn) hpb
  have d := celsius_near hn
  have c' : |((windRounded (celsius n) (FloatSem.pow s (f64 (16 / 100))) : Rat) : ℝ) -
      ((windFormula (celsius n) (FloatSem.pow s (f64 (16 / 100))) : Rat) : ℝ)| ≤ 1 / 10 ^ 9 := by
    have := Rat.cast_le (K := ℝ) |>.mpr c
    push_cast at this
    exact this
  have d' : |((celsius n : Rat) : ℝ) - (n : ℝ) / 10| ≤ 1 / 100000 := by
    have := Rat.cast_le (K := ℝ) |>.mpr d
    push_cast at this
    exact this
  have hn' : |(n : ℝ) / 10| ≤ 100 := by
    have : |(n : ℝ)| ≤ 1000 := by exact_mod_cast hn
    rw [abs_div]; norm_num; linarith
  generalize ((windRounded (celsius n) (FloatSem.pow s (f64 (16 / 100))) : Rat) : ℝ) = r at *
  have e : ((windFormula (celsius n) (FloatSem.pow s (f64 (16 / 100))) : Rat) : ℝ) = 13.12 +
      0.6215 * ((celsius n : Rat) : ℝ) - 11.37 * ((FloatSem.pow s (f64 (16 / 100)) : Rat) : ℝ) +
      0.3965 * (((celsius n : Rat) : ℝ) * ((FloatSem.pow s (f64 (16 / 100)) : Rat) : ℝ)) := by
    unfold windFormula; push_cast; ring
  rw [e] at c'
  unfold windChillOf
  rw [mul_assoc (0.3965 : ℝ)]
  generalize ((FloatSem.pow s (f64 (16 / 100)) : Rat) : ℝ) = p at *
  generalize ((celsius n : Rat) : ℝ) = t at *
  generalize (q : ℝ) ^ (0.16 : ℝ) = y at *
  generalize (n : ℝ) / 10 = m at *
  have f : |p - y| ≤ 2 / 10 ^ 5 := le_trans a (by norm_num; linarith)
  have g : |t * p - m * y| ≤ 1 / 100000 * 5 + 100 * (2 / 10 ^ 5) := by
    have e1 : t * p - m * y = (t - m) * p + m * (p - y) := by ring
    rw [e1]
    refine le_trans (abs_add_le _ _) ?_
    rw [abs_mul, abs_mul]
    have hp5 : |p| ≤ 5 := by rw [abs_le]; constructor <;> linarith [a'.1, a'.2]
    have g1 : |t - m| * |p| ≤ 1 / 100000 * 5 := mul_le_mul d' hp5 (abs_nonneg _) (by norm_num)
    have g2 : |m| * |p - y| ≤ 100 * (2 / 10 ^ 5) := mul_le_mul hn' f (abs_nonneg _) (by norm_num)
    linarith
  have c1 := abs_le.mp c'
  have d1 := abs_le.mp d'
  have f1 := abs_le.mp f
  have g1 := abs_le.mp g
  generalize t * p = z at *
  generalize m * y = w at *
  rw [abs_le]
  norm_num at *
  constructor <;> linarith

end Metaf.Props
