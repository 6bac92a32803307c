import Verif.Float
import Mathlib.Tactic.Linarith
import Mathlib.Tactic.NormNum
import Mathlib.Tactic.Positivity
import Mathlib.Tactic.GCongr
import Mathlib.Tactic.Ring
import Mathlib.Data.Rat.Floor

/-!
Rounding errors.
-/

set_option linter.unusedSectionVars false

namespace Metaf

variable [FloatSem]

theorem f32_close {x y e M : Rat} (h : |x - y| ≤ e) (hM : |y| ≤ M) (hb : M + e ≤ 2 ^ 127) :
    |f32 x - y| ≤ e + (M + e) / 2 ^ 24 + 1 / 2 ^ 150 := by
  have hx : |x| ≤ M + e := by
    have := abs_add_le (x - y) y
    rw [sub_add_cancel] at this
    linarith
  have h1 := FloatSem.f32_err x (le_trans hx hb)
  have h2 : |f32 x - y| ≤ |f32 x - x| + |x - y| := abs_sub_le _ _ _
  have h3 : |x| / 2 ^ 24 ≤ (M + e) / 2 ^ 24 := by gcongr
  linarith

theorem f64_close {x y e M : Rat} (h : |x - y| ≤ e) (hM : |y| ≤ M) (hb : M + e ≤ 2 ^ 1023) :
    |f64 x - y| ≤ e + (M + e) / 2 ^ 53 + 1 / 2 ^ 1075 := by
  have hx : |x| ≤ M + e := by
    have := abs_add_le (x - y) y
    rw [sub_add_cancel] at this
    linarith
  have h1 := FloatSem.f64_err x (le_trans hx hb)
  have h2 : |f64 x - y| ≤ |f64 x - x| + |x - y| := abs_sub_le _ _ _
  have h3 : |x| / 2 ^ 53 ≤ (M + e) / 2 ^ 53 := by gcongr
  linarith

/-- Rounding of values of magnitude up to 2^40: the constants in a form easy to compute with. -/
theorem f32_near {x y e : Rat} (M : Rat) (h : |x - y| ≤ e) (hM : |y| ≤ M) (hb : M + e ≤ 2 ^ 40) :
    |f32 x - y| ≤ e + (M + e) / 2 ^ 24 + 1 / 2 ^ 60 := by
  have h1 := f32_close h hM (le_trans hb (by norm_num))
  have : (1 : Rat) / 2 ^ 150 ≤ 1 / 2 ^ 60 := by norm_num
  linarith

theorem f64_near {x y e : Rat} (M : Rat) (h : |x - y| ≤ e) (hM : |y| ≤ M) (hb : M + e ≤ 2 ^ 40) :
    |f64 x - y| ≤ e + (M + e) / 2 ^ 53 + 1 / 2 ^ 60 := by
  have h1 := f64_close h hM (le_trans hb (pow_le_pow_right₀ (by norm_num) (by norm_num)))
  have : (1 : Rat) / 2 ^ 1075 ≤ 1 / 2 ^ 60 :=
    one_div_le_one_div_of_le (by positivity) (pow_le_pow_right₀ (by norm_num) (by norm_num))
  generalize (1 : Rat) / 2 ^ 1075 = z at h1 this
  linarith

theorem mul_near {x y k l e d M L : Rat} (h : |x - y| ≤ e) (hk : |k - l| ≤ d) (hM : |y| ≤ M)
    (hL : |l| ≤ L) : |x * k - y * l| ≤ e * (L + d) + M * d := by
  have he : 0 ≤ e := le_trans (abs_nonneg _) h
  have hd : 0 ≤ d := le_trans (abs_nonneg _) hk
  have hM0 : 0 ≤ M := le_trans (abs_nonneg _) hM
  have hkk : |k| ≤ L + d := by
    have := abs_add_le (k - l) l
    rw [sub_add_cancel] at this
    linarith
  have h1 : x * k - y * l = (x - y) * k + y * (k - l) := by ring
  rw [h1]
  refine le_trans (abs_add_le _ _) ?_
  rw [abs_mul, abs_mul]
  have h2 : |x - y| * |k| ≤ e * (L + d) := mul_le_mul h hkk (abs_nonneg _) he
  have h3 : |y| * |k - l| ≤ M * d := mul_le_mul hM hk (abs_nonneg _) hM0
  linarith

theorem add_near {x y k l e d : Rat} (h : |x - y| ≤ e) (hk : |k - l| ≤ d) :
    |(x + k) - (y + l)| ≤ e + d := by
  have : (x + k) - (y + l) = (x - y) + (k - l) := by ring
  rw [this]
  exact le_trans (abs_add_le _ _) (by linarith)

theorem near_self (x : Rat) : |x - x| ≤ 0 := by simp

theorem f32_nat {n : Nat} (h : n ≤ 2 ^ 24) : f32 (n : Rat) = n := by
  have := FloatSem.f32_int (n : Int) (by rw [abs_of_nonneg (by positivity)]; exact_mod_cast h)
  simpa using this

theorem f64_nat {n : Nat} (h : n ≤ 2 ^ 53) : f64 (n : Rat) = n := by
  have := FloatSem.f64_int (n : Int) (by rw [abs_of_nonneg (by positivity)]; exact_mod_cast h)
  simpa using this

theorem f32_zero : f32 0 = 0 := by simpa using f32_nat (n := 0) (by norm_num)
theorem f64_zero : f64 0 = 0 := by simpa using f64_nat (n := 0) (by norm_num)

theorem f32_nonneg {x : Rat} (h : 0 ≤ x) : 0 ≤ f32 x := by
  have := FloatSem.f32_mono 0 x h
  rwa [f32_zero] at this

theorem f64_nonneg {x : Rat} (h : 0 ≤ x) : 0 ≤ f64 x := by
  have := FloatSem.f64_mono 0 x h
  rwa [f64_zero] at this

omit [FloatSem] in
theorem floor_eq {q : Rat} {n : Int} (h1 : (n : Rat) ≤ q) (h2 : q < n + 1) : q.floor = n := by
  rw [show q.floor = ⌊q⌋ from rfl, Int.floor_eq_iff]
  exact ⟨h1, h2⟩

omit [FloatSem] in
theorem round_near {q : Rat} {n : Int} (h : |q - n| < 1 / 2) : roundHalfAway q = n := by
  rw [abs_lt] at h
  unfold roundHalfAway
  split
  · rw [floor_eq (n := -n) (by push_cast; linarith) (by push_cast; linarith)]
    ring
  · exact floor_eq (by linarith) (by linarith)

end Metaf
