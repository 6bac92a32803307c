import Verif.Props.ExplainNumbers
import Verif.Props.Climate
import Verif.Proofs.Util
import Verif.Ieee

/-!
C104: numbers shown by `explain` (`/repo/examples/explain.cpp`) in the unit of the report.
-/

set_option linter.unusedSectionVars false

namespace Metaf.Props

open Metaf Metaf.Spec Metaf.Explain

variable [FloatIeee]

/-! ### Specification -/

/-- The text is exactly the number `y` with `d` decimals, followed by the name of the unit. -/
def GivenExactly (d : Nat) (y : Rat) (unit s : Str) : Prop := ∃ t, s = t ++ unit ∧ Shows d t y

/-! ### Lemmas -/

/-- A number near a number with `d` decimals of the same sign. -/
theorem exactly_of {d : Nat} (hd : d ≤ 6) (q : Rat) (z : Int) (unit : Str)
    (h1 : |(z : Rat)| / 10 ^ d - 1 / 2000000 < |q|) (h2 : |q| < (|(z : Rat)| + 1) / 10 ^ d - 1 / 2000000)
    (hs : (0 < z → 0 < q) ∧ (z < 0 → q < 0)) : GivenExactly d (z / 10 ^ d) unit (roundTo q d ++ unit) := by
  have e : ((z.natAbs : Nat) : Rat) = |(z : Rat)| := by
    rw [← Int.cast_abs, Int.abs_eq_natAbs]; rfl
  obtain ⟨v, g1, g2, g3⟩ := roundTo_exact q hd z.natAbs (by rw [e]; exact h1) (by rw [e]; exact h2)
  refine ⟨_, rfl, ?_⟩
  have hp : (0 : Rat) < 10 ^ d := by positivity
  rw [e] at g2
  have : v = z / 10 ^ d := by
    rcases lt_trichotomy z 0 with h | h | h
    · have hq := hs.2 h
      have hz : (z : Rat) < 0 := by exact_mod_cast h
      have hv : v ≤ 0 := by
        by_contra hc
        have := mul_neg_of_pos_of_neg (not_le.mp hc) hq
        linarith
      rw [abs_of_nonpos hv, abs_of_neg hz, neg_div] at g2
      linarith
    · subst h
      simp at g2
      simp [g2]
    · have hq := hs.1 h
      have hz : (0 : Rat) < z := by exact_mod_cast h
      have hv : 0 ≤ v := by
        by_contra hc
        have := mul_neg_of_neg_of_pos (not_le.mp hc) hq
        linarith
      rwa [abs_of_nonneg hv, abs_of_pos hz] at g2
  rw [← this]
  exact g1

/-- A number nearer than half a millionth to a number with few decimals. -/
theorem exactly_near {d : Nat} (hd : d ≤ 5) (r : Rat) (z : Int) (unit : Str) (h : |r - z / 10 ^ d| < 1 / 2000000) :
    GivenExactly d (z / 10 ^ d) unit (roundTo r d ++ unit) := by
  have hp : (0 : Rat) < 10 ^ d := by positivity
  have hp5 : (10 : Rat) ^ d ≤ 10 ^ 5 := pow_le_pow_right₀ (by norm_num) hd
  have hi : (1 : Rat) / 10 ^ 5 ≤ 1 / 10 ^ d := one_div_le_one_div_of_le hp hp5
  have ha : |(z : Rat)| / 10 ^ d = |(z : Rat) / 10 ^ d| := by rw [abs_div, abs_of_pos hp]
  have h1 := abs_sub_abs_le_abs_sub r (z / 10 ^ d)
  have h2 := abs_sub_abs_le_abs_sub ((z : Rat) / 10 ^ d) r
  rw [abs_sub_comm] at h2
  have hb := abs_lt.mp h
  refine exactly_of (by omega) r z unit (by rw [ha]; linarith) (by rw [add_div, ha]; norm_num at *; linarith) ⟨?_, ?_⟩
  · intro hz
    have : (1 : Rat) / 10 ^ d ≤ z / 10 ^ d := div_le_div_of_nonneg_right (by exact_mod_cast hz) hp.le
    norm_num at *
    linarith
  · intro hz
    have h3 : (z : Rat) ≤ -1 := by exact_mod_cast (by omega : z ≤ -1)
    have : (z : Rat) / 10 ^ d ≤ -1 / 10 ^ d := div_le_div_of_nonneg_right h3 hp.le
    rw [neg_div] at this
    norm_num at *
    linarith

/-- A whole number is shown with zeros after the point. -/
theorem exactly_whole (d : Nat) (hd : d ≤ 6) (z : Int) (unit : Str) :
    GivenExactly d z unit (roundTo (z : Rat) d ++ unit) := by
  have hp : (0 : Rat) < 10 ^ d := by positivity
  have hp6 : (10 : Rat) ^ d ≤ 10 ^ 6 := pow_le_pow_right₀ (by norm_num) hd
  have h := exactly_of hd (z : Rat) (z * 10 ^ d) unit (by
      push_cast
      rw [abs_mul, abs_of_pos hp, mul_div_assoc, div_self hp.ne']
      norm_num) (by
      push_cast
      rw [abs_mul, abs_of_pos hp, add_div, mul_div_assoc, div_self hp.ne', mul_one]
      have : (1 : Rat) / 10 ^ 6 ≤ 1 / 10 ^ d := one_div_le_one_div_of_le hp hp6
      norm_num at this ⊢
      linarith) ⟨fun h => by
        have : 0 < z := by
          by_contra hc
          have := mul_nonpos_of_nonpos_of_nonneg (not_lt.mp hc) (by positivity : (0 : Int) ≤ 10 ^ d)
          omega
        exact_mod_cast this, fun h => by
        have : z < 0 := by
          by_contra hc
          have := mul_nonneg (not_lt.mp hc) (by positivity : (0 : Int) ≤ 10 ^ d)
          omega
        exact_mod_cast this⟩
  have e : ((z * 10 ^ d : Int) : Rat) / 10 ^ d = z := by
    push_cast
    rw [mul_div_assoc, div_self hp.ne', mul_one]
  rwa [e] at h

/-- A result is the `float` that is nearer than half a unit in the last place. -/
theorem f32_unique {x : Rat} (k j : Int) (hk : 2 ^ 23 < |k|) (hk' : |k| ≤ 2 ^ 24) (hj : -149 ≤ j)
    (h : |(k : Rat) * 2 ^ j - x| < 2 ^ j / 2) : f32 x = k * 2 ^ j := by
  have hn := FloatIeee.f32_nearest x ((k : Rat) * 2 ^ j)
  rw [FloatIeee.f32_rep k j hk' hj] at hn
  have hp := two_zpow_pos j
  have hd : |f32 x - k * 2 ^ j| < 2 ^ j := by
    calc |f32 x - k * 2 ^ j| = |(f32 x - x) + (x - k * 2 ^ j)| := by rw [sub_add_sub_cancel]
      _ ≤ |f32 x - x| + |x - k * 2 ^ j| := abs_add_le _ _
      _ < 2 ^ j := by rw [abs_sub_comm x]; linarith
  obtain ⟨l, hl⟩ := FloatIeee.f32_grid x (j + 23) (by
    have h1 : |(k : Rat) * 2 ^ j| ≤ |f32 x| + |f32 x - k * 2 ^ j| := by
      calc |(k : Rat) * 2 ^ j| = |f32 x - (f32 x - k * 2 ^ j)| := by rw [sub_sub_cancel]
        _ ≤ _ := abs_sub _ _
    rw [abs_mul, abs_of_pos hp] at h1
    have h2 : (2 ^ 23 + 1 : Rat) ≤ |(k : Rat)| := by exact_mod_cast hk
    have h3 := mul_le_mul_of_nonneg_right h2 hp.le
    rw [two_zpow_add, show (2 : Rat) ^ (23 : Int) = 2 ^ 23 by norm_num]
    linarith)
  rw [show j + 23 - 23 = j by ring] at hl
  rw [hl, ← sub_mul, abs_mul, abs_of_pos hp, mul_lt_iff_lt_one_left hp] at hd
  have : |l - k| < 1 := by exact_mod_cast hd
  rw [Int.abs_lt_one_iff] at this
  rw [hl, show l = k by omega]

/-- The error of a `float` is at most half a unit in the last place. -/
theorem f32_half {y : Rat} (e : Int) (he : -125 ≤ e) (h : |y| ≤ 2 ^ e) : |f32 y - y| ≤ 2 ^ (e - 25) := by
  have hp := two_zpow_pos (e - 24)
  have hr := roundEven_half (y / 2 ^ (e - 24))
  generalize roundEven (y / 2 ^ (e - 24)) = k at hr
  have h25 : (2 : Rat) ^ (e - 24) = 2 * 2 ^ (e - 25) := by
    rw [show e - 24 = 1 + (e - 25) by ring, two_zpow_add]; norm_num
  have hg : |(k : Rat) * 2 ^ (e - 24) - y| ≤ 2 ^ (e - 25) := by
    have e1 : (k : Rat) * 2 ^ (e - 24) - y = (k - y / 2 ^ (e - 24)) * 2 ^ (e - 24) := by
      field_simp
    rw [e1, abs_mul, abs_of_pos hp]
    have := mul_le_mul_of_nonneg_right hr hp.le
    linarith
  have hk : |k| ≤ 2 ^ 24 := by
    have h1 : |y / 2 ^ (e - 24)| ≤ 2 ^ 24 := by
      rw [abs_div, abs_of_pos hp, div_le_iff₀ hp]
      refine h.trans (le_of_eq ?_)
      rw [show (2 : Rat) ^ 24 = 2 ^ (24 : Int) by norm_num, ← two_zpow_add]
      congr 1
      ring
    have h2 : |(k : Rat)| < 2 ^ 24 + 1 := by
      have := abs_sub_abs_le_abs_sub (k : Rat) (y / 2 ^ (e - 24))
      linarith
    have h3 : |k| < 2 ^ 24 + 1 := by exact_mod_cast h2
    omega
  have hn := FloatIeee.f32_nearest y ((k : Rat) * 2 ^ (e - 24))
  rw [FloatIeee.f32_rep k (e - 24) hk (by omega)] at hn
  exact hn.trans hg

/-- Whether the product of a number of tenths and the constant for one tenth has a nearest `float` with unit
`2 ^ s / 2 ^ 27` in the last place that is large enough. -/
def tenthsOk (n s : Nat) : Bool :=
  let k := (2 * n * 13421773 + 2 ^ s) / 2 ^ (s + 1)
  2 ^ 23 < k && k ≤ 2 ^ 24 && 2 * k * 2 ^ s < 2 * n * 13421773 + 2 ^ s && 2 * n * 13421773 < 2 * k * 2 ^ s + 2 ^ s &&
    2000000 * n * 2 ^ 27 < k * 2 ^ s * 20000000 + 10 * 2 ^ 27

theorem tenths_table : ∀ n < 323, 0 < n → (List.range 10).any (tenthsOk n) = true := by
  decide +kernel

theorem tenths_float {n : Nat} (hn : n ≤ 322) (h0 : 0 < n) : ∃ g : Rat, f32 (n * (13421773 / 2 ^ 27)) = g ∧
    f32 (-(n * (13421773 / 2 ^ 27))) = -g ∧ (n : Rat) / 10 - 1 / 2000000 < g := by
  obtain ⟨s, _, hs⟩ := List.any_eq_true.mp (tenths_table n (by omega) h0)
  simp only [tenthsOk, Bool.and_eq_true, decide_eq_true_eq] at hs
  obtain ⟨⟨⟨⟨h1, h2⟩, h3⟩, h4⟩, h5⟩ := hs
  generalize (2 * n * 13421773 + 2 ^ s) / 2 ^ (s + 1) = k at *
  have hp : (2 : Rat) ^ ((s : Int) - 27) = 2 ^ s / 2 ^ 27 := by
    rw [show ((s : Int) - 27) = s + (-27) by ring, two_zpow_add, zpow_natCast]
    norm_num
    ring
  have hps : (0 : Rat) < 2 ^ s := by positivity
  have h3' : (2 * k * 2 ^ s : Rat) < 2 * n * 13421773 + 2 ^ s := by exact_mod_cast h3
  have h4' : (2 * n * 13421773 : Rat) < 2 * k * 2 ^ s + 2 ^ s := by exact_mod_cast h4
  have h5' : (2000000 * n * 2 ^ 27 : Rat) < k * 2 ^ s * 20000000 + 10 * 2 ^ 27 := by exact_mod_cast h5
  have hd : |((k : Int) : Rat) * 2 ^ ((s : Int) - 27) - n * (13421773 / 2 ^ 27)| < 2 ^ ((s : Int) - 27) / 2 := by
    rw [hp, abs_lt]
    push_cast
    constructor <;> linarith
  refine ⟨((k : Int) : Rat) * 2 ^ ((s : Int) - 27), f32_unique k (s - 27) ?_ ?_ (by omega) hd, ?_, ?_⟩
  · rw [abs_of_nonneg (by positivity)]; exact_mod_cast h1
  · rw [abs_of_nonneg (by positivity)]; exact_mod_cast h2
  · have hd' : |((-(k : Int) : Int) : Rat) * 2 ^ ((s : Int) - 27) - -(n * (13421773 / 2 ^ 27))| <
        2 ^ ((s : Int) - 27) / 2 := by
      rw [← abs_neg]
      refine lt_of_eq_of_lt ?_ hd
      congr 1
      push_cast
      ring
    rw [f32_unique (-(k : Int)) (s - 27) ?_ ?_ (by omega) hd']
    · push_cast; ring
    · rw [abs_neg, abs_of_nonneg (by positivity)]; exact_mod_cast h1
    · rw [abs_neg, abs_of_nonneg (by positivity)]; exact_mod_cast h2
  · rw [hp]
    push_cast
    linarith

/-- The value of up to 32.2 degrees. -/
theorem tenths_bounds {n : Int} (hn : |n| ≤ 322) :
    |(n : Rat)| / 10 - 1 / 2000000 < |f32 ((n : Rat) * Temperature.preciseValuePrecision)| ∧
      (0 < n → 0 < f32 ((n : Rat) * Temperature.preciseValuePrecision)) ∧
      (n < 0 → f32 ((n : Rat) * Temperature.preciseValuePrecision) < 0) := by
  rw [tenth_eq]
  by_cases h0 : n = 0
  · subst h0
    simp [f32_zero]
  obtain ⟨g, g1, g2, g3⟩ := tenths_float (n := n.natAbs) (by rw [Int.abs_eq_natAbs] at hn; omega) (by omega)
  have e : ((n.natAbs : Nat) : Rat) = |(n : Rat)| := by
    rw [← Int.cast_abs, Int.abs_eq_natAbs]; rfl
  have hg : 0 < g := by
    have : (1 : Rat) ≤ (n.natAbs : Nat) := by exact_mod_cast (by omega : 1 ≤ n.natAbs)
    linarith
  rw [e] at g1 g2 g3
  rcases lt_or_gt_of_ne h0 with h | h
  · have hq : (n : Rat) < 0 := by exact_mod_cast h
    have hv : f32 ((n : Rat) * (13421773 / 2 ^ 27)) = -g := by
      rw [← g2, abs_of_neg hq]
      congr 1
      ring
    rw [hv, abs_neg, abs_of_pos hg]
    exact ⟨g3, fun h' => by omega, fun _ => by linarith⟩
  · have hq : (0 : Rat) < n := by exact_mod_cast h
    have hv : f32 ((n : Rat) * (13421773 / 2 ^ 27)) = g := by rw [← g1, abs_of_pos hq]
    rw [hv, abs_of_pos hg]
    exact ⟨g3, fun _ => hg, fun h' => by omega⟩

/-- The `float` nearest to one hundredth. -/
theorem hundredth_eq : f32 (f64 (1 / 100)) = 10737418 / 2 ^ 30 := by
  have h1 := f64_rel (x := 1 / 100) (by norm_num)
  rw [show |(1 / 100 : Rat)| = 1 / 100 by norm_num] at h1
  have h1' := abs_le.mp h1
  generalize f64 (1 / 100) = x at *
  rw [f32_unique (x := x) 10737418 (-30) (by norm_num) (by norm_num) (by norm_num) (by
    rw [abs_lt]
    norm_num at *
    constructor <;> linarith)]
  norm_num

/-- The value in metres for a number of tenths. -/
theorem wave_value {q : Rat} (h0 : 0 ≤ q) (hq : q ≤ 159) : |Speed.mulLit q (1 / 10) - q / 10| < 1 / 2000000 := by
  unfold Speed.mulLit
  have h1 := f64_near (1 / 10) (near_self (1 / 10)) (by norm_num) (by norm_num)
  have h2 : |q * f64 (1 / 10) - q / 10| ≤ 1 / 2 ^ 40 := by
    rw [abs_le] at *
    generalize f64 (1 / 10) = c at *
    norm_num at *
    constructor <;> nlinarith
  have h3 := f64_near 16 h2 (by rw [abs_of_nonneg (by positivity)]; linarith) (by norm_num)
  have h3' := abs_le.mp h3
  have h4 := f32_half (y := f64 (q * f64 (1 / 10))) 4 (by norm_num) (by
    rw [abs_le]
    norm_num at *
    constructor <;> linarith)
  have h4' := abs_le.mp h4
  rw [abs_lt]
  generalize f64 (q * f64 (1 / 10)) = y at *
  generalize f32 y = z at *
  norm_num at *
  constructor <;> linarith

/-! ### Theorems -/

/-- The text of a temperature up to a hundred degrees. -/
theorem temperature_text (x : Temperature) (n : Int) (h : tenths x = some n) (hn : |n| ≤ 1000) :
    ∃ c f, Given 1 (n / 10) c!" &deg;C" c ∧
      (x.precise = false ∨ |n| ≤ 322 → GivenExactly 1 (n / 10) c!" &deg;C" c) ∧
      Given 1 (n / 10 * (9 / 5) + 32) c!" &deg;F" f ∧
      explainTemperature x = (if n = 0 ∧ x.precise = false then
        if x.freezing then c!"slightly less than " else c!"slightly more than " else []) ++ c ++ c!" / " ++ f := by
  have ht : ∃ v, x.temperature = some v := by
    unfold tenths at h
    unfold Temperature.temperature
    cases hx : x.tempValue with
    | none => rw [hx] at h; cases h
    | some v => exact ⟨_, rfl⟩
  obtain ⟨v, hv⟩ := ht
  have he := temperature_eq h hn
  have hc : x.toUnit .C = some v := by rw [(C31_temperature_own x .C).2, hv]
  have hve : v = f32 ((n : Rat) * Temperature.preciseValuePrecision) := by rw [hc] at he; exact Option.some.inj he
  have hn' : |(n : Rat)| ≤ 1000 := by exact_mod_cast hn
  have hnear := value_near hn
  have hg : x.precise = false ∨ |n| ≤ 322 → GivenExactly 1 (n / 10) c!" &deg;C" (roundTo v 1 ++ c!" &deg;C") := by
    rintro (hp | hp)
    · have e : v = ((n / 10 : Int) : Rat) ∧ (n : Rat) / 10 = ((n / 10 : Int) : Rat) := by
        cases hx : x.tempValue with
        | none => rw [tenths, hx] at h; cases h
        | some w =>
          rw [tenths, hx, hp] at h
          simp only [Option.map_some, Bool.false_eq_true, if_false, Option.some.injEq] at h
          rw [Temperature.temperature, hx, hp] at hv
          simp only [Bool.false_eq_true, if_false, Option.some.injEq] at hv
          have hw : |w| ≤ 2 ^ 24 := by rw [← h, abs_mul] at hn; norm_num at hn ⊢; omega
          rw [FloatSem.f32_int w hw] at hv
          rw [← hv, ← h]
          constructor
          · rw [Int.mul_ediv_cancel_left _ (by decide)]
          · rw [Int.mul_ediv_cancel_left _ (by decide)]; push_cast; ring
      rw [e.1, e.2]
      exact exactly_whole 1 (by decide) _ _
    · obtain ⟨b1, b2⟩ := tenths_bounds hp
      rw [← hve] at b1 b2 hnear
      have e := exactly_of (d := 1) (by decide) v n c!" &deg;C" (by norm_num at *; linarith) (by
        have := abs_sub_abs_le_abs_sub v ((n : Rat) / 10)
        rw [show |(n : Rat) / 10| = |(n : Rat)| / 10 by rw [abs_div]; norm_num] at this
        norm_num at *
        linarith) b2
      norm_num at e ⊢
      exact e
  obtain ⟨r, hr, hb⟩ := C31_temperature_value x v hv (by
    have := abs_le.mp hnear
    rw [← hve] at this
    rw [abs_le] at hn' ⊢
    norm_num at *
    constructor <;> linarith)
  refine ⟨_, _, given_of (d := 1) (r := v) (by decide) ?_, hg, given_of (d := 1) (r := r) (by decide) ?_, ?_⟩
  · rw [← hve] at hnear
    have := abs_nonneg ((n : Rat) / 10)
    linarith
  · rw [← hve] at hnear
    have h1 := abs_le.mp hnear
    have h2 := abs_le.mp hb
    have h3 := abs_le.mp hn'
    rw [abs_le]
    generalize (n : Rat) = q at *
    rcases abs_cases v with ⟨a, _⟩ | ⟨a, _⟩ <;> rcases abs_cases (q / 10 * (9 / 5) + 32) with ⟨b, _⟩ | ⟨b, _⟩ <;>
      rw [b] <;> rw [a] at h2 <;> constructor <;> linarith
  · have hz : v = 0 ↔ n = 0 := by
      constructor
      · intro h0
        rw [← hve, h0, zero_sub, abs_neg, abs_div] at hnear
        have : |(n : Rat)| < 1 := by norm_num at hnear; linarith
        have h1 : |n| < 1 := by exact_mod_cast this
        exact Int.abs_lt_one_iff.mp h1
      · rintro rfl
        rw [hve]
        simp [f32_zero]
    unfold explainTemperature
    rw [hv, hc, hr]
    simp only [hz]

/-- C104. A temperature given in whole degrees, or in tenths up to 32.2 degrees, is shown exactly. -/
theorem C104_temperature_partial (x : Temperature) (n : Int) (h : tenths x = some n) (hn : |n| ≤ 1000)
    (hp : x.precise = false ∨ |n| ≤ 322) :
    ∃ c f, GivenExactly 1 (n / 10) c!" &deg;C" c ∧ Given 1 (n / 10 * (9 / 5) + 32) c!" &deg;F" f ∧
      explainTemperature x = (if n = 0 ∧ x.precise = false then
        if x.freezing then c!"slightly less than " else c!"slightly more than " else []) ++ c ++ c!" / " ++ f := by
  obtain ⟨c, f, -, hc, hf, he⟩ := temperature_text x n h hn
  exact ⟨c, f, hc hp, hf, he⟩

/-- C104. A pressure in whole hectopascals is shown exactly. -/
theorem C104_hectopascal (v : Nat) (hv : v < 2 ^ 33) : ∃ a b c, GivenExactly 1 v c!" hPa" a ∧
    Given 2 (v * (hpaPer .HECTOPASCAL / hpaPer .INCHES_HG)) c!" inHg" b ∧
    Given 1 (v * (hpaPer .HECTOPASCAL / hpaPer .MM_HG)) c!" mmHg" c ∧
    explainPressure ⟨some v, .HECTOPASCAL⟩ = a ++ c!" / " ++ b ++ c!" / " ++ c := by
  have hv' : (v : Rat) ≤ 2 ^ 33 := by exact_mod_cast hv.le
  have hp : ∀ w, 0 ≤ (v : Rat) * (hpaPer .HECTOPASCAL / hpaPer w) := by
    intro w
    have : 0 < hpaPer .HECTOPASCAL / hpaPer w := by cases w <;> norm_num [hpaPer]
    positivity
  obtain ⟨r2, e2, w2⟩ := C31_pressure_value v (by positivity) hv' .HECTOPASCAL .INCHES_HG
  obtain ⟨r3, e3, w3⟩ := C31_pressure_value v (by positivity) hv' .HECTOPASCAL .MM_HG
  refine ⟨_, _, _, exactly_whole 1 (by decide) v c!" hPa", given_within (by decide) (hp _) w2,
    given_within (by decide) (hp _) w3, ?_⟩
  have e1 : (⟨some (v : Rat), .HECTOPASCAL⟩ : Pressure).toUnit .HECTOPASCAL = some (v : Rat) := rfl
  unfold explainPressure
  dsimp only
  rw [e1, e2, e3]
  rfl

/-- C104. A coefficient of friction is shown exactly. -/
theorem C104_friction (n : Nat) (hn : n ≤ 100) :
    ∃ t, Shows 2 t (n / 100) ∧
      explainSurfaceFriction ⟨.SURFACE_FRICTION_REPORTED, n⟩ = c!"friction coefficient " ++ t := by
  have hq : (n : Rat) ≤ 100 := by exact_mod_cast hn
  have h0 : (0 : Rat) ≤ n := by positivity
  have hm := mulLit_near (v := n) (k := 1 / 100) h0 (le_trans hq (by norm_num)) (by norm_num) (by norm_num)
  obtain ⟨t, ht, hs⟩ := exactly_near (d := 2) (by decide) (Speed.mulLit n (1 / 100)) n [] (by
    generalize Speed.mulLit (n : Rat) (1 / 100) = z at *
    rw [abs_lt]
    have hb := abs_le.mp hm
    push_cast
    generalize (n : Rat) = q at *
    norm_num at *
    constructor <;> linarith)
  refine ⟨t, by norm_num at hs ⊢; exact hs, ?_⟩
  rw [List.append_nil, List.append_nil] at ht
  rw [← ht]
  rfl

/-- C104. A wave height below 16 metres is shown exactly. -/
theorem C104_wave_height_partial (n : Nat) (hn : n < 160) :
    ∃ a b, GivenExactly 1 (n / 10) c!" meters" a ∧ Given 1 (n / 10 * (10000 / 3048)) c!" feet" b ∧
      explainWaveHeight ⟨.WAVE_HEIGHT, some n⟩ = c!"wave height: " ++ a ++ c!" / " ++ b := by
  obtain ⟨b, _, hb, he⟩ := waveHeight_text n (by omega)
  have h := exactly_near (d := 1) (by decide) (Speed.mulLit n (1 / 10)) n c!" meters" (by
    have := wave_value (q := n) (by positivity) (by exact_mod_cast (by omega : n ≤ 159))
    norm_num at this ⊢
    exact this)
  refine ⟨_, b, ?_, hb, he⟩
  norm_num at h ⊢
  exact h

theorem precipitation_text (v : Rat) (h0 : 0 < v) (hv : v ≤ 2 ^ 33) :
    (∃ b, Given 2 (v / (254 / 10)) c!" inches" b ∧
      explainPrecipitation ⟨some v, .MM⟩ = roundTo v 1 ++ c!" mm" ++ c!" / " ++ b) ∧
    ∃ a, Given 1 (v * (254 / 10)) c!" mm" a ∧
      explainPrecipitation ⟨some v, .INCHES⟩ = a ++ c!" / " ++ (roundTo v 2 ++ c!" inches") := by
  obtain ⟨r1, e1, w1⟩ := C31_precipitation_value v h0.le hv .INCHES .MM
  obtain ⟨r2, e2, w2⟩ := C31_precipitation_value v h0.le hv .MM .INCHES
  have o1 : (⟨some v, .MM⟩ : Precipitation).toUnit .MM = some v := rfl
  have o2 : (⟨some v, .INCHES⟩ : Precipitation).toUnit .INCHES = some v := rfl
  have m1 : v * (mmPer .INCHES / mmPer .MM) = v * (254 / 10) := by norm_num [mmPer]
  have m2 : v * (mmPer .MM / mmPer .INCHES) = v / (254 / 10) := by norm_num [mmPer]; ring
  rw [m1] at w1
  rw [m2] at w2
  refine ⟨⟨_, given_within (by decide) (by positivity) w2, ?_⟩, _, given_within (by decide) (by positivity) w1, ?_⟩
  · unfold explainPrecipitation
    rw [if_neg (by simp [Precipitation.isReported]), if_neg (by simp; exact ne_of_gt h0), o1, e2]
  · unfold explainPrecipitation
    rw [if_neg (by simp [Precipitation.isReported]), if_neg (by simp; exact ne_of_gt h0), e1, o2]

/-- C104. An amount of precipitation given in whole units is shown exactly. -/
theorem C104_whole_precipitation (n : Nat) (h0 : 0 < n) (hn : n ≤ 2 ^ 24) :
    (∃ a b, GivenExactly 1 n c!" mm" a ∧ Given 2 (n / (254 / 10)) c!" inches" b ∧
      explainPrecipitation ⟨some (f32 n), .MM⟩ = a ++ c!" / " ++ b) ∧
    ∃ a b, Given 1 (n * (254 / 10)) c!" mm" a ∧ GivenExactly 2 n c!" inches" b ∧
      explainPrecipitation ⟨some (f32 n), .INCHES⟩ = a ++ c!" / " ++ b := by
  rw [f32_nat hn]
  have hp : (0 : Rat) < n := by exact_mod_cast h0
  have hn' : (n : Rat) ≤ 2 ^ 24 := by exact_mod_cast hn
  obtain ⟨⟨b, hb, e1⟩, a, ha, e2⟩ := precipitation_text n hp (hn'.trans (by norm_num))
  exact ⟨⟨_, b, exactly_whole 1 (by decide) n c!" mm", hb, e1⟩, a, _, ha, exactly_whole 2 (by decide) n c!" inches", e2⟩

/-- C104. An amount of precipitation of less than 8 inches given in hundredths is shown exactly. -/
theorem C104_hundredths_partial (n : Nat) (h0 : 0 < n) (hn : n < 800) :
    ∃ a b, GivenExactly 2 (n / 100) c!" inches" b ∧
      explainPrecipitation ⟨some (f32 (f32 n * f32 (f64 (1 / 100)))), .INCHES⟩ = a ++ c!" / " ++ b := by
  rw [f32_nat (by omega), hundredth_eq]
  have hp : (1 : Rat) ≤ n := by exact_mod_cast h0
  have hn' : (n : Rat) ≤ 799 := by exact_mod_cast (by omega : n ≤ 799)
  have hv : |f32 ((n : Rat) * (10737418 / 2 ^ 30)) - n / 100| < 1 / 2000000 := by
    generalize (n : Rat) = q at *
    have h1 := abs_le.mp (f32_half (y := q * (10737418 / 2 ^ 30)) 3 (by norm_num) (by
      rw [abs_of_nonneg (by positivity)]; norm_num; linarith))
    rw [abs_lt]
    norm_num at *
    constructor <;> linarith
  have hv' := abs_lt.mp hv
  obtain ⟨-, a, _, e⟩ := precipitation_text (f32 ((n : Rat) * (10737418 / 2 ^ 30))) (by linarith) (by
    linarith)
  have h := exactly_near (d := 2) (by decide) (f32 ((n : Rat) * (10737418 / 2 ^ 30))) n c!" inches" (by
    norm_num at hv ⊢
    exact hv)
  refine ⟨a, _, ?_, e⟩
  norm_num at h ⊢
  exact h

/-- C104. An amount of precipitation up to 32.2 given in tenths is shown exactly. -/
theorem C104_tenths_partial (n : Nat) (h0 : 0 < n) (hn : n ≤ 322) :
    (∃ a b, GivenExactly 1 (n / 10) c!" mm" a ∧
      explainPrecipitation ⟨some (f32 (f32 n * f32 (f64 (1 / 10)))), .MM⟩ = a ++ c!" / " ++ b) ∧
    ∃ a b, GivenExactly 2 (n / 10) c!" inches" b ∧
      explainPrecipitation ⟨some (f32 (f32 n * f32 (f64 (1 / 10)))), .INCHES⟩ = a ++ c!" / " ++ b := by
  have hn' : |(n : Int)| ≤ 322 := by rw [abs_of_nonneg (by positivity)]; exact_mod_cast hn
  obtain ⟨h1, h2, -⟩ := tenths_bounds hn'
  have h3 := value_near (n := n) (hn'.trans (by norm_num))
  rw [f32_nat (by omega)]
  change _ < |f32 (((n : Int) : Rat) * f32 (f64 (1 / 10)))| at h1
  change _ → 0 < f32 (((n : Int) : Rat) * f32 (f64 (1 / 10))) at h2
  change |f32 (((n : Int) : Rat) * f32 (f64 (1 / 10))) - _| ≤ _ at h3
  rw [Int.cast_natCast] at h1 h2 h3
  have hp := h2 (by exact_mod_cast h0)
  have hq : (0 : Rat) ≤ n := by positivity
  have hq' : (n : Rat) ≤ 322 := by exact_mod_cast hn
  rw [abs_of_pos hp, abs_of_nonneg hq] at h1
  have h3' := abs_le.mp h3
  obtain ⟨⟨b, _, e1⟩, a, _, e2⟩ := precipitation_text (f32 ((n : Rat) * f32 (f64 (1 / 10)))) hp (by linarith)
  generalize f32 ((n : Rat) * f32 (f64 (1 / 10))) = y at *
  constructor
  · refine ⟨_, b, ?_, e1⟩
    have h := exactly_of (d := 1) (by decide) y n c!" mm" (by
      rw [Int.cast_natCast, abs_of_pos hp, abs_of_nonneg hq]; linarith) (by
      rw [Int.cast_natCast, abs_of_pos hp, abs_of_nonneg hq]; linarith) ⟨fun _ => hp, fun h => by omega⟩
    norm_num at h ⊢
    exact h
  · refine ⟨a, _, ?_, e2⟩
    have h := exactly_of (d := 2) (by decide) y (10 * n : Nat) c!" inches" (by
      rw [Int.cast_natCast, abs_of_pos hp, abs_of_nonneg (by positivity)]; push_cast; linarith) (by
      rw [Int.cast_natCast, abs_of_pos hp, abs_of_nonneg (by positivity)]; push_cast; linarith)
      ⟨fun _ => hp, fun h => by omega⟩
    have e : (((10 * n : Nat) : Int) : Rat) / 10 ^ 2 = n / 10 := by push_cast; ring
    rwa [e] at h

/-- C104. A distance of whole metres or feet is shown exactly in its own unit, and so is a distance in miles that
is one of the values used for visibility. -/
theorem C104_distance (m : Modifier) (v : Nat) (u : DistanceUnit) (hm : m = .NONE ∨ m = .LESS_THAN ∨ m = .MORE_THAN)
    (hv : storedAmount v u * metersPer u ≤ 200 * metersPer .STATUTE_MILES) :
    ∃ t : DistanceUnit → Str, (∀ w, GivenDistance (storedAmount v u * (metersPer u / metersPer w)) w (t w)) ∧
      (u = .METERS → ∃ a, Numeral a v ∧ t u = a ++ c!" meters") ∧
      (u = .FEET → ∃ a, Numeral a v ∧ t u = a ++ c!" feet") ∧
      (u = .STATUTE_MILES → ∀ k : Nat, ReportableMiles k → (v : Rat) / 10000 = k / 16 →
        ∃ a, MixedText a (k / 16) ∧ t u = a ++ c!" statute miles") ∧
      explainDistance ⟨m, some v, u⟩ = .ok (distanceSign m ++ t u ++ c!" (" ++
        c!" / ".intercalate ((distanceUnits.filter (· ≠ u)).map t) ++ c!")") := by
  obtain ⟨x1, t1, x2, t2, r, e1, s1, e2, s2, er, hg, he⟩ := distance_text m v u hm hv
  have own : ∀ x t, u ≠ .STATUTE_MILES → (⟨m, some v, u⟩ : Distance).toUnit u = some x → showAsInt x = .ok t →
      t = showNat v := by
    intro x t hu ex es
    have hv24 : v ≤ 2 ^ 24 := by
      have : (v : Rat) ≤ 16777216 := by
        cases u <;> norm_num [storedAmount, metersPer] at hv hu <;> linarith
      exact_mod_cast this
    have ho := (C31_distance_own ⟨m, some v, u⟩ u).2.2 v rfl hv24 hu
    dsimp only at ho
    rw [ex] at ho
    obtain rfl := Option.some.inj ho
    obtain ⟨n, hi, h2, h3⟩ := toInt_floor (q := v) (by positivity) (by
      have : (v : Rat) ≤ 2 ^ 24 := by exact_mod_cast hv24
      exact this.trans (by norm_num))
    have h2' : n ≤ v := by exact_mod_cast h2
    have h3' : v < n + 1 := by exact_mod_cast h3
    obtain rfl : n = v := by omega
    unfold showAsInt at es
    rw [hi] at es
    simp [bind, Except.bind, text, showInt] at es
    exact es.symm
  refine ⟨_, hg, ?_, ?_, ?_, he⟩
  · rintro rfl
    exact ⟨_, showNat_numeral v, by rw [distanceText, own x1 t1 (by simp) e1 s1]⟩
  · rintro rfl
    exact ⟨_, showNat_numeral v, by rw [distanceText, own x2 t2 (by simp) e2 s2]⟩
  · rintro rfl k hk hq
    obtain ⟨r', er', ek⟩ := C33_round_trip ⟨m, some v, .STATUTE_MILES⟩ k hk (by simp [exactMiles, hq]) (by
      rw [storedAmount, hq] at hv
      have : (k : Rat) ≤ 3200 := by norm_num [metersPer] at hv; linarith
      exact_mod_cast this)
    rw [er] at er'
    obtain rfl := Option.some.inj er'
    exact ⟨_, by rw [← ek]; exact showMiles_mixed _ _, rfl⟩

end Metaf.Props

namespace Metaf.Props

open Metaf Metaf.Spec Metaf.Explain

attribute [local instance] ieee

/-! ### The values that are not shown as reported -/

/-- A temperature of 32.3 degrees is shown as 32.2, an altimeter setting of 30.13 inches as 30.12 and a pressure
at sea level of 1012.3 hPa as 1012.2: the text of the number is cut after the last decimal. -/
theorem C104_violated :
    ((Temperature.fromRemarkString c!"0323").map explainTemperature = some c!"32.2 &deg;C / 90.1 &deg;F") ∧
      ((Pressure.fromString c!"A3013").map explainPressure = some c!"1020.3 hPa / 30.12 inHg / 765.3 mmHg") ∧
      ((Pressure.fromSlpString c!"SLP123").map explainPressure = some c!"1012.2 hPa / 29.89 inHg / 759.3 mmHg") := by
  refine ⟨?_, ?_, ?_⟩
  · kernel_rfl
  · kernel_rfl
  · kernel_rfl

/-! ### Examples -/

example : explainTemperature ⟨some (-187), true, true⟩ = c!"-18.7 &deg;C / -1.6 &deg;F" := by kernel_rfl
example : explainTemperature ⟨some 0, true, false⟩ = c!"slightly less than 0.0 &deg;C / 32.0 &deg;F" := by kernel_rfl
example : explainPressure ⟨some 1013, .HECTOPASCAL⟩ = c!"1013.0 hPa / 29.91 inHg / 759.8 mmHg" := by kernel_rfl
example : explainSurfaceFriction ⟨.SURFACE_FRICTION_REPORTED, 29⟩ = c!"friction coefficient 0.29" := by kernel_rfl
example : explainWaveHeight ⟨.WAVE_HEIGHT, some 12⟩ = c!"wave height: 1.2 meters / 3.9 feet" := by kernel_rfl
example : explainDistance ⟨.LESS_THAN, some 2500, .STATUTE_MILES⟩ =
    .ok c!"&lt;1/4 statute miles (402 meters / 1320 feet)" := by kernel_rfl
example : explainDistance ⟨.NONE, some 9999, .METERS⟩ = .ok c!"9999 meters (6 statute miles / 32805 feet)" := by kernel_rfl
example : explainSpeed ⟨some 10, .KNOTS⟩ = c!"10 knots (5.1 m/s / 18.5 km/h / 11.5 mph)" := by kernel_rfl
example : explainSpeed ⟨some 5, .MILES_PER_HOUR⟩ = c!"5 mph (4.3 knots / 2.2 m/s / 8.0 km/h)" := by kernel_rfl
example : explainPrecipitation ⟨some (f32 (12 * f32 (f64 (1 / 100)))), .INCHES⟩ = c!"3.0 mm / 0.12 inches" := by
  kernel_rfl

end Metaf.Props
