import Verif.Model.PageDistance
import Mathlib.Geometry.Euclidean.Angle.Unoriented.TriangleInequality
import Mathlib.Analysis.InnerProductSpace.PiL2
import Mathlib.Analysis.Real.Pi.Bounds

/-!
C137: the distance of a station on the page with the summaries
(`/repo/examples/shellfiles/summary_shell.html`) is the distance along the surface of the earth.
-/

namespace Metaf.Props

open Metaf.PageDistance

/-! ### Specification -/

/-- The place on a sphere of radius 1 with this latitude and longitude in degrees. -/
noncomputable def placeOnSphere (lat lon : ℝ) : EuclideanSpace ℝ (Fin 3) :=
  !₂[Real.cos (lat * (Real.pi / 180)) * Real.cos (lon * (Real.pi / 180)),
     Real.cos (lat * (Real.pi / 180)) * Real.sin (lon * (Real.pi / 180)),
     Real.sin (lat * (Real.pi / 180))]

/-- The radius of the earth in kilometres with which the page reckons: one degree of a meridian is 60 times 1.1515
miles. -/
noncomputable def earthRadius : ℝ := 60 * 1.1515 * 1.609344 * (180 / Real.pi)

/-! ### Proofs -/

theorem sphere_inner (lat1 lon1 lat2 lon2 : ℝ) :
    inner ℝ (placeOnSphere lat1 lon1) (placeOnSphere lat2 lon2) =
      Real.sin (lat1 * (Real.pi / 180)) * Real.sin (lat2 * (Real.pi / 180)) +
      Real.cos (lat1 * (Real.pi / 180)) * Real.cos (lat2 * (Real.pi / 180)) *
        Real.cos ((lon1 - lon2) * (Real.pi / 180)) := by
  unfold placeOnSphere
  rw [EuclideanSpace.inner_eq_star_dotProduct]
  simp [dotProduct, Fin.sum_univ_three, sub_mul, Real.cos_sub]
  ring

theorem sphere_norm (lat lon : ℝ) : ‖placeOnSphere lat lon‖ = 1 := by
  have h : ‖placeOnSphere lat lon‖ ^ 2 = 1 := by
    rw [← real_inner_self_eq_norm_sq, sphere_inner, sub_self, zero_mul, Real.cos_zero]
    nlinarith [Real.sin_sq_add_cos_sq (lat * (Real.pi / 180))]
  have h0 := norm_nonneg (placeOnSphere lat lon)
  nlinarith

theorem sphere_angle (lat1 lon1 lat2 lon2 : ℝ) :
    InnerProductGeometry.angle (placeOnSphere lat1 lon1) (placeOnSphere lat2 lon2) =
      Real.arccos (inner ℝ (placeOnSphere lat1 lon1) (placeOnSphere lat2 lon2)) := by
  unfold InnerProductGeometry.angle
  rw [sphere_norm, sphere_norm, mul_one, div_one]

theorem sphere_inner_le (lat1 lon1 lat2 lon2 : ℝ) :
    inner ℝ (placeOnSphere lat1 lon1) (placeOnSphere lat2 lon2) ≤ 1 := by
  have := real_inner_le_norm (placeOnSphere lat1 lon1) (placeOnSphere lat2 lon2)
  rwa [sphere_norm, sphere_norm, mul_one] at this

theorem earthRadius_pos : 0 < earthRadius := by
  unfold earthRadius
  have := Real.pi_pos
  positivity

/-! ### C137 -/

/-- C137. The distance is the angle between the two places, as seen from the middle of the earth, times its radius. -/
theorem C137_great_circle (lat1 lon1 lat2 lon2 : ℝ) :
    distanceKm lat1 lon1 lat2 lon2 =
      earthRadius * InnerProductGeometry.angle (placeOnSphere lat1 lon1) (placeOnSphere lat2 lon2) := by
  unfold distanceKm
  split
  · rename_i h
    rw [h.1, h.2, InnerProductGeometry.angle_self, mul_zero]
    intro h0
    have := sphere_norm lat2 lon2
    rw [h0, norm_zero] at this
    exact zero_ne_one this
  · dsimp only
    have e : Real.sin (Real.pi * lat1 / 180) * Real.sin (Real.pi * lat2 / 180) +
        Real.cos (Real.pi * lat1 / 180) * Real.cos (Real.pi * lat2 / 180) * Real.cos (Real.pi * (lon1 - lon2) / 180) =
        inner ℝ (placeOnSphere lat1 lon1) (placeOnSphere lat2 lon2) := by
      rw [sphere_inner]
      have h : ∀ x : ℝ, Real.pi * x / 180 = x * (Real.pi / 180) := fun x => by ring
      rw [h, h, h]
    rw [e, if_neg (not_lt.mpr (sphere_inner_le _ _ _ _)), sphere_angle]
    unfold earthRadius
    ring

/-- C137. Distances are not negative, the same in both directions, and a detour is not shorter. -/
theorem C137_metric (lat1 lon1 lat2 lon2 lat3 lon3 : ℝ) :
    0 ≤ distanceKm lat1 lon1 lat2 lon2 ∧
    distanceKm lat1 lon1 lat2 lon2 = distanceKm lat2 lon2 lat1 lon1 ∧
    distanceKm lat1 lon1 lat3 lon3 ≤ distanceKm lat1 lon1 lat2 lon2 + distanceKm lat2 lon2 lat3 lon3 := by
  simp only [C137_great_circle]
  have hr := earthRadius_pos
  refine ⟨mul_nonneg hr.le (InnerProductGeometry.angle_nonneg _ _), by rw [InnerProductGeometry.angle_comm], ?_⟩
  rw [← mul_add]
  exact mul_le_mul_of_nonneg_left (InnerProductGeometry.angle_le_angle_add_angle _ _ _) hr.le

/-- C137. The distance is 0 only between a place and itself. -/
theorem C137_zero (lat1 lon1 lat2 lon2 : ℝ) :
    distanceKm lat1 lon1 lat2 lon2 = 0 ↔ placeOnSphere lat1 lon1 = placeOnSphere lat2 lon2 := by
  rw [C137_great_circle, mul_eq_zero, or_iff_right earthRadius_pos.ne', InnerProductGeometry.angle_eq_zero_iff]
  constructor
  · rintro ⟨-, r, hr, h⟩
    have hn := congrArg norm h
    rw [norm_smul, sphere_norm, sphere_norm, Real.norm_of_nonneg hr.le, mul_one] at hn
    rw [h, ← hn, one_smul]
  · intro h
    refine ⟨?_, 1, one_pos, by rw [one_smul, h]⟩
    intro h0
    have := sphere_norm lat1 lon1
    rw [h0, norm_zero] at this
    exact zero_ne_one this

/-- C137. No place is farther than half the way round the earth; places opposite each other are that far apart. -/
theorem C137_farthest (lat1 lon1 lat2 lon2 : ℝ) :
    distanceKm lat1 lon1 lat2 lon2 ≤ Real.pi * earthRadius ∧
    (placeOnSphere lat1 lon1 = -placeOnSphere lat2 lon2 → distanceKm lat1 lon1 lat2 lon2 = Real.pi * earthRadius) := by
  rw [C137_great_circle, mul_comm Real.pi]
  refine ⟨mul_le_mul_of_nonneg_left (InnerProductGeometry.angle_le_pi _ _) earthRadius_pos.le, fun h => ?_⟩
  rw [h, InnerProductGeometry.angle_neg_left, InnerProductGeometry.angle_self, sub_zero]
  intro h0
  have := sphere_norm lat2 lon2
  rw [h0, norm_zero] at this
  exact zero_ne_one this

/-- C137. A longitude may be given with any number of turns. -/
theorem C137_turns (lat1 lon1 lat2 lon2 : ℝ) (k : ℤ) :
    distanceKm lat1 (lon1 + 360 * k) lat2 lon2 = distanceKm lat1 lon1 lat2 lon2 := by
  rw [C137_great_circle, C137_great_circle]
  congr 2
  unfold placeOnSphere
  have e : (lon1 + 360 * k) * (Real.pi / 180) = lon1 * (Real.pi / 180) + k * (2 * Real.pi) := by ring
  rw [e, Real.cos_add_int_mul_two_pi, Real.sin_add_int_mul_two_pi]

/-- C137. Along a meridian the distance is in proportion to the difference of latitudes. -/
theorem C137_meridian (lat1 lat2 lon : ℝ) (h : |lat1 - lat2| ≤ 180) :
    distanceKm lat1 lon lat2 lon = 60 * 1.1515 * 1.609344 * |lat1 - lat2| := by
  rw [C137_great_circle, sphere_angle, sphere_inner, sub_self, zero_mul, Real.cos_zero, mul_one, add_comm,
    ← Real.cos_sub, ← sub_mul, ← Real.cos_abs, abs_mul,
    abs_of_pos (show 0 < Real.pi / 180 by have := Real.pi_pos; positivity)]
  have hp := Real.pi_pos
  rw [Real.arccos_cos (by positivity) (by nlinarith)]
  unfold earthRadius
  field_simp

/-- C137. The radius is that of the earth (6357 km to the poles, 6378 km to the equator), and a degree of a meridian is
111.2 km. -/
theorem C137_radius : 6357 < earthRadius ∧ earthRadius < 6378 ∧
    |earthRadius * (Real.pi / 180) - 111.2| < 0.02 := by
  have h1 := Real.pi_gt_d4
  have h2 := Real.pi_lt_d4
  have hp := Real.pi_pos
  unfold earthRadius
  refine ⟨?_, ?_, ?_⟩
  · rw [← mul_div_assoc, lt_div_iff₀ hp]
    linarith
  · rw [← mul_div_assoc, div_lt_iff₀ hp]
    linarith
  · have e : (60 * 1.1515 * 1.609344 * (180 / Real.pi) * (Real.pi / 180) : ℝ) = 60 * 1.1515 * 1.609344 := by
      field_simp
    rw [e, abs_lt]
    constructor <;> norm_num

/-- From the equator to the pole: 10007 km, a quarter of the way round the earth. -/
example : |distanceKm 0 25 90 25 - 10007| < 0.1 := by
  rw [C137_meridian 0 90 25 (by norm_num [abs_le])]
  norm_num [abs_lt, abs_of_neg]

/-- The poles are opposite each other, whatever the longitudes. -/
example : placeOnSphere 90 17 = -placeOnSphere (-90) 17 := by
  unfold placeOnSphere
  have e : (90 : ℝ) * (Real.pi / 180) = Real.pi / 2 := by ring
  ext i
  fin_cases i <;> simp [e, neg_mul, Real.cos_neg, Real.sin_neg]

end Metaf.Props
