import Verif.Props.Climate
import Verif.Spec.Climate
import Mathlib.Analysis.Convex.SpecificFunctions.Basic

/-!
Rounding errors of the formulas of heat index, wind chill and relative humidity.
-/

namespace Metaf.Props

set_option linter.unusedSectionVars false

/-! ### Values with an error and a bound -/

/-- `a` differs from the exact value `x` by at most `e`, and `x` is at most `m` in magnitude. -/
def Approx (a x e m : Rat) : Prop := |a - x| ≤ e ∧ |x| ≤ m

variable [FloatIeee]

open Temperature in
theorem Approx.mul {a x e m b l : Rat} (h : Approx a x e m) (hb : |b| ≤ l) (hl : (m + e) * l ≤ 2 ^ 40) :
    Approx (mulD a b) (x * b) (e * l + (m * l + e * l) / 2 ^ 53 + 1 / 2 ^ 60) (m * l) := by
  obtain ⟨h1, h2⟩ := h
  have he : 0 ≤ e := le_trans (abs_nonneg _) h1
  have hm : 0 ≤ m := le_trans (abs_nonneg _) h2
  have h3 : |a * b - x * b| ≤ e * l := by
    rw [← sub_mul, abs_mul]
    exact mul_le_mul h1 hb (abs_nonneg _) he
  have h4 : |x * b| ≤ m * l := by
    rw [abs_mul]
    exact mul_le_mul h2 hb (abs_nonneg _) hm
  exact ⟨f64_near _ h3 h4 (by linarith), h4⟩

open Temperature in
theorem Approx.add {a x e m b y d n : Rat} (h : Approx a x e m) (k : Approx b y d n)
    (hl : m + n + (e + d) ≤ 2 ^ 40) :
    Approx (addD a b) (x + y) (e + d + (m + n + (e + d)) / 2 ^ 53 + 1 / 2 ^ 60) (m + n) := by
  have h4 : |x + y| ≤ m + n := le_trans (abs_add_le _ _) (add_le_add h.2 k.2)
  exact ⟨f64_near _ (add_near h.1 k.1) h4 hl, h4⟩

theorem Approx.const {c m : Rat} (h : |c| ≤ m) (hl : m ≤ 2 ^ 40) :
    Approx (f64 c) c (0 + (m + 0) / 2 ^ 53 + 1 / 2 ^ 60) m :=
  ⟨f64_near _ (near_self c) h (by linarith), h⟩

/-! ### Heat index -/

/-- The polynomial of the code in exact arithmetic. -/
def heatPolynomial (t r : Rat) : Rat :=
  -8.78469475556 + 1.61139411 * t + 2.33854883889 * r + -0.14611605 * t * r + -0.012308094 * t * t +
    -0.0164248277778 * r * r + 0.002211732 * t * t * r + 0.00072546 * t * r * r + -0.000003582 * t * t * r * r

theorem heatIndexC_near {t r : Rat} (ht : |t| ≤ 101) (hr : |r| ≤ 100) :
    |Temperature.heatIndexC t r - heatPolynomial t r| ≤ 1 / 10 ^ 9 := by
  have k1 := Approx.const (c := -878469475556 / 100000000000) (m := 9) (by norm_num [abs_le]) (by norm_num)
  have k2 := (Approx.const (c := 161139411 / 100000000) (m := 2) (by norm_num [abs_le]) (by norm_num)).mul ht
    (by norm_num)
  have k3 := (Approx.const (c := 233854883889 / 100000000000) (m := 3) (by norm_num [abs_le]) (by norm_num)).mul hr
    (by norm_num)
  have k4 := ((Approx.const (c := -14611605 / 100000000) (m := 1 / 2) (by norm_num [abs_le]) (by norm_num)).mul ht
    (by norm_num)).mul hr (by norm_num)
  have k5 := ((Approx.const (c := -12308094 / 1000000000) (m := 1 / 50) (by norm_num [abs_le]) (by norm_num)).mul ht
    (by norm_num)).mul ht (by norm_num)
  have k6 := ((Approx.const (c := -164248277778 / 10000000000000) (m := 1 / 50) (by norm_num [abs_le])
    (by norm_num)).mul hr (by norm_num)).mul hr (by norm_num)
  have k7 := (((Approx.const (c := 2211732 / 1000000000) (m := 1 / 400) (by norm_num [abs_le])
    (by norm_num)).mul ht (by norm_num)).mul ht (by norm_num)).mul hr (by norm_num)
  have k8 := (((Approx.const (c := 72546 / 100000000) (m := 1 / 1000) (by norm_num [abs_le])
    (by norm_num)).mul ht (by norm_num)).mul hr (by norm_num)).mul hr (by norm_num)
  have k9 := ((((Approx.const (c := -3582 / 1000000000) (m := 1 / 100000) (by norm_num [abs_le])
    (by norm_num)).mul ht (by norm_num)).mul ht (by norm_num)).mul hr (by norm_num)).mul hr (by norm_num)
  have s := (((((((k1.add k2 (by norm_num)).add k3 (by norm_num)).add k4 (by norm_num)).add k5
    (by norm_num)).add k6 (by norm_num)).add k7 (by norm_num)).add k8 (by norm_num)).add k9 (by norm_num)
  have e : heatPolynomial t r = -878469475556 / 100000000000 + 161139411 / 100000000 * t +
      233854883889 / 100000000000 * r + -14611605 / 100000000 * t * r + -12308094 / 1000000000 * t * t +
      -164248277778 / 10000000000000 * r * r + 2211732 / 1000000000 * t * t * r +
      72546 / 100000000 * t * r * r + -3582 / 1000000000 * t * t * r * r := by
    unfold heatPolynomial; norm_num
  rw [e]
  exact le_trans s.1 (by norm_num)

omit [FloatIeee] in
/-- The polynomial of the code is the published formula converted to degrees Celsius. -/
theorem heatPolynomial_near {t r : Rat} (hr : 0 ≤ r) (hr' : r ≤ 100) :
    |heatPolynomial t r - Metaf.Spec.heatIndexOf t r| ≤ 1 / 10 ^ 9 := by
  have h2 : r ^ 2 ≤ 10000 := by nlinarith
  have h0 : 0 ≤ r ^ 2 := by positivity
  unfold heatPolynomial Metaf.Spec.heatIndexOf Metaf.Spec.rothfusz
  rw [abs_le]
  constructor <;> ring_nf <;> norm_num <;> linarith

omit [FloatIeee] in
theorem heatPolynomial_lipschitz {t u r : Rat} (ht : |t| ≤ 101) (hu : |u| ≤ 101) (hr : |r| ≤ 100) :
    |heatPolynomial t r - heatPolynomial u r| ≤ |t - u| * 85 := by
  have e : heatPolynomial t r - heatPolynomial u r = (t - u) * (1.61139411 + -0.14611605 * r + 0.00072546 * r ^ 2 +
      (t + u) * (-0.012308094 + 0.002211732 * r + -0.000003582 * r ^ 2)) := by
    unfold heatPolynomial; ring
  rw [e, abs_mul]
  refine mul_le_mul_of_nonneg_left ?_ (abs_nonneg _)
  have hr2 : |r ^ 2| ≤ 10000 := by
    rw [abs_pow]
    nlinarith [abs_nonneg r]
  have htu : |t + u| ≤ 202 := le_trans (abs_add_le _ _) (by linarith)
  have a1 : |-0.012308094 + 0.002211732 * r + -0.000003582 * r ^ 2| ≤ (0.28 : Rat) := by
    have := abs_le.mp hr
    have := abs_le.mp hr2
    rw [abs_le]
    norm_num at *
    constructor <;> linarith
  have a2 : |(t + u) * (-0.012308094 + 0.002211732 * r + -0.000003582 * r ^ 2)| ≤ (202 * 0.28 : Rat) := by
    rw [abs_mul]
    exact mul_le_mul htu a1 (abs_nonneg _) (by norm_num)
  generalize (t + u) * (-0.012308094 + 0.002211732 * r + -0.000003582 * r ^ 2) = w at *
  have := abs_le.mp hr
  have := abs_le.mp hr2
  have := abs_le.mp a2
  rw [abs_le]
  norm_num at *
  constructor <;> linarith

omit [FloatIeee] in
theorem heatPolynomial_bound {t r : Rat} (ht : |t| ≤ 101) (hr : |r| ≤ 100) : |heatPolynomial t r| ≤ 6000 := by
  have key : ∀ {c x y m l : Rat}, |x| ≤ m → |y| ≤ l → |c * x * y| ≤ |c| * m * l := by
    intro c x y m l hx hy
    rw [abs_mul, abs_mul]
    have hm : 0 ≤ m := le_trans (abs_nonneg _) hx
    exact mul_le_mul (mul_le_mul_of_nonneg_left hx (abs_nonneg _)) hy (abs_nonneg _) (by positivity)
  have one : |(1 : Rat)| ≤ 1 := by norm_num
  have htt : |t * t| ≤ 101 * 101 := by
    rw [abs_mul]; exact mul_le_mul ht ht (abs_nonneg _) (by norm_num)
  have hrr : |r * r| ≤ 100 * 100 := by
    rw [abs_mul]; exact mul_le_mul hr hr (abs_nonneg _) (by norm_num)
  have k2 := abs_le.mp (key (c := 1.61139411) ht one)
  have k3 := abs_le.mp (key (c := 2.33854883889) hr one)
  have k4 := abs_le.mp (key (c := -0.14611605) ht hr)
  have k5 := abs_le.mp (key (c := -0.012308094) htt one)
  have k6 := abs_le.mp (key (c := -0.0164248277778) hrr one)
  have k7 := abs_le.mp (key (c := 0.002211732) htt hr)
  have k8 := abs_le.mp (key (c := 0.00072546) ht hrr)
  have k9 := abs_le.mp (key (c := -0.000003582) htt hrr)
  unfold heatPolynomial
  rw [abs_le]
  constructor <;> ring_nf at * <;> norm_num [abs_of_pos, abs_of_neg] at * <;> linarith

/-! ### Temperatures made of numbers -/

omit [FloatIeee] in
theorem roundHalfAway_near (q : Rat) : |(roundHalfAway q : Rat) - q| ≤ 1 / 2 := by
  unfold roundHalfAway
  split
  · have h1 := Int.floor_le (-q + 1 / 2)
    have h2 := Int.lt_floor_add_one (-q + 1 / 2)
    rw [show (-q + 1 / 2).floor = ⌊-q + 1 / 2⌋ from rfl]
    push_cast
    rw [abs_le]
    constructor <;> linarith
  · have h1 := Int.floor_le (q + 1 / 2)
    have h2 := Int.lt_floor_add_one (q + 1 / 2)
    rw [show (q + 1 / 2).floor = ⌊q + 1 / 2⌋ from rfl]
    rw [abs_le]
    constructor <;> linarith

omit [FloatIeee] in
theorem roundHalfAway_le {p q : Rat} (h : p ≤ q) : roundHalfAway p ≤ roundHalfAway q := by
  unfold roundHalfAway
  rw [show ∀ x : Rat, x.floor = ⌊x⌋ from fun _ => rfl, show ∀ x : Rat, x.floor = ⌊x⌋ from fun _ => rfl,
    show ∀ x : Rat, x.floor = ⌊x⌋ from fun _ => rfl, show ∀ x : Rat, x.floor = ⌊x⌋ from fun _ => rfl]
  split <;> split
  · exact neg_le_neg (Int.floor_mono (by linarith))
  · have h1 : 0 ≤ ⌊-p + 1 / 2⌋ := Int.floor_nonneg.mpr (by linarith)
    have h2 : 0 ≤ ⌊q + 1 / 2⌋ := Int.floor_nonneg.mpr (by linarith)
    omega
  · linarith
  · exact Int.floor_mono (by linarith)

/-- The tenths of a degree of a temperature made of a number. -/
def tenthsOf (x : Rat) : Int := roundHalfAway (f64 (f32 x * 10))

theorem tenths_ofFloat (x : Rat) : tenths (Temperature.ofFloat (f32 x)) = some (tenthsOf x) := rfl

theorem tenthsOf_le {x y : Rat} (h : x ≤ y) : tenthsOf x ≤ tenthsOf y :=
  roundHalfAway_le (FloatSem.f64_mono _ _ (by linarith [FloatSem.f32_mono _ _ h]))

theorem tenthsOf_near {x y e : Rat} (h : |x - y| ≤ e) (hy : |y| ≤ 6000) (he : e ≤ 1 / 100) :
    |(tenthsOf x : Rat) / 10 - y| ≤ 1 / 20 + e + 4 / 10 ^ 4 := by
  have he0 : 0 ≤ e := le_trans (abs_nonneg _) h
  have h1 := f32_near 6000 h hy (by norm_num; linarith)
  have h2 : |f32 x * 10 - y * 10| ≤ (e + (6000 + e) / 2 ^ 24 + 1 / 2 ^ 60) * 10 := by
    rw [← sub_mul, abs_mul]
    exact mul_le_mul h1 (by norm_num) (abs_nonneg _) (by positivity)
  have h3 := f64_near 60000 h2 (by rw [abs_mul]; norm_num; linarith) (by norm_num; linarith)
  have h4 := roundHalfAway_near (f64 (f32 x * 10))
  have a := abs_le.mp h3
  have b := abs_le.mp h4
  unfold tenthsOf
  generalize f64 (f32 x * 10) = z at *
  rw [abs_le]
  norm_num at *
  constructor <;> linarith

/-! ### The heat index of a temperature and a humidity -/

/-- The value in degrees Celsius of a number of tenths. -/
def celsius (n : Int) : Rat := f32 ((n : Rat) * Temperature.preciseValuePrecision)

theorem celsius_near {n : Int} (hn : |n| ≤ 1000) : |celsius n - (n : Rat) / 10| ≤ 1 / 100000 := value_near hn

theorem celsius_bound {n : Int} (hn : |n| ≤ 1000) : |celsius n| ≤ 101 := value_bound hn

theorem heatIndexRh_eq {t : Temperature} {n : Int} {r : Rat} (ht : tenths t = some n) (h1 : 270 ≤ n) (h2 : n ≤ 1000)
    (h3 : 40 ≤ r) (h4 : r ≤ 100) :
    tenths (Temperature.heatIndexRh t r) = some (tenthsOf (Temperature.heatIndexC (celsius n) r)) := by
  have hn : |n| ≤ 1000 := by rw [abs_le]; omega
  have h := (C29_heat_index t r (by rintro m hm; rw [ht] at hm; obtain rfl := Option.some.inj hm; exact hn)).mpr
    ⟨n, ht, h1, h3, h4⟩
  unfold Temperature.heatIndexRh at h ⊢
  rw [temperature_eq ht hn] at h ⊢
  simp only at h ⊢
  split at h
  · simp [Temperature.isReported] at h
  · split at h
    · simp [Temperature.isReported] at h
    · rename_i a b
      rw [if_neg a, if_neg b]
      exact tenths_ofFloat _

theorem heatIndexC_value {n : Int} {r : Rat} (h1 : 270 ≤ n) (h2 : n ≤ 1000) (h3 : 40 ≤ r) (h4 : r ≤ 100) :
    |Temperature.heatIndexC (celsius n) r - heatPolynomial (n / 10) r| ≤ 86 / 100000 := by
  have hn : |n| ≤ 1000 := by rw [abs_le]; omega
  have hr : |r| ≤ 100 := by rw [abs_le]; constructor <;> linarith
  have hn' : |(n : Rat) / 10| ≤ 101 := by
    have : |(n : Rat)| ≤ 1000 := by exact_mod_cast hn
    rw [abs_div]; norm_num; linarith
  have a := heatIndexC_near (celsius_bound hn) hr
  have b := heatPolynomial_lipschitz (celsius_bound hn) hn' hr
  have c := celsius_near hn
  have d := abs_sub_le (Temperature.heatIndexC (celsius n) r) (heatPolynomial (celsius n) r) (heatPolynomial (n / 10) r)
  norm_num at *
  linarith

end Metaf.Props
