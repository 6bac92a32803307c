import Verif.Model.Amounts
import Verif.Proofs.Float

/-!
Values given in tenths.
-/

set_option linter.unusedSectionVars false

namespace Metaf

variable [FloatSem]

/-- A value in tenths survives the conversion to `float` and back. -/
theorem tenths_round {n : Int} (h : |n| ≤ 999) :
    roundHalfAway (f64 (f32 (f64 ((n : Rat) / 10)) * 10)) = n := by
  have hq : |(n : Rat) / 10| ≤ 100 := by
    rw [abs_div]
    have : |(n : Rat)| ≤ 999 := by exact_mod_cast h
    have h10 : |(10 : Rat)| = 10 := by norm_num
    rw [h10]
    linarith
  have h1 := f64_near 100 (near_self ((n : Rat) / 10)) hq (by norm_num)
  have h2 := f32_near 100 h1 hq (by norm_num)
  have h3 := mul_near h2 (near_self 10) hq (show |(10 : Rat)| ≤ 10 by norm_num)
  have hn : (n : Rat) / 10 * 10 = n := by ring
  rw [hn] at h3
  have h4 := f64_near 1000 h3 (by
    have : |(n : Rat)| ≤ 999 := by exact_mod_cast h
    linarith) (by norm_num)
  exact round_near (lt_of_le_of_lt h4 (by norm_num))

theorem tenths_neg {n : Int} (h : |n| ≤ 999) :
    f32 (f64 ((n : Rat) / 10)) < 0 ↔ n < 0 := by
  constructor
  · intro hlt
    by_contra hn
    have : (0 : Rat) ≤ (n : Rat) / 10 := by
      have : (0 : Rat) ≤ n := by exact_mod_cast (not_lt.mp hn)
      positivity
    have := f32_nonneg (f64_nonneg this)
    linarith
  · intro hn
    by_contra hge
    have hr := tenths_round h
    have h0 : 0 ≤ f64 (f32 (f64 ((n : Rat) / 10)) * 10) := f64_nonneg (by linarith)
    have : 0 ≤ roundHalfAway (f64 (f32 (f64 ((n : Rat) / 10)) * 10)) := by
      unfold roundHalfAway
      rw [if_neg (by linarith)]
      rw [show ∀ q : Rat, q.floor = ⌊q⌋ from fun _ => rfl]
      exact Int.floor_nonneg.mpr (by linarith)
    omega

end Metaf
