import Verif.Lemmas.Metric

/-!
# C30: the great-circle distance is a distance in degrees on the sphere

`onSphere (lon, lat)` is the point of the unit sphere in 3-space (`Spec/Distance.lean`).
-/

namespace PyKrige
noncomputable section
open Spec

/-- It is the angle, in degrees, between the two points of the sphere, seen from its centre. -/
theorem C30_angle (lon1 lat1 lon2 lat2 : ℝ) : greatCircleDistance lon1 lat1 lon2 lat2 =
    180 / Real.pi * InnerProductGeometry.angle (onSphere (lon1, lat1)) (onSphere (lon2, lat2)) := by
  rw [greatCircleDistance_eq_angle]; rfl

theorem C30_symmetric (lon1 lat1 lon2 lat2 : ℝ) :
    greatCircleDistance lon1 lat1 lon2 lat2 = greatCircleDistance lon2 lat2 lon1 lat1 :=
  greatCircleDistance_comm _ _ _ _

/-- It is zero exactly between the same points of the sphere (all longitudes are the same point at a pole). -/
theorem C30_zero_iff (lon1 lat1 lon2 lat2 : ℝ) :
    greatCircleDistance lon1 lat1 lon2 lat2 = 0 ↔ onSphere (lon1, lat1) = onSphere (lon2, lat2) := by
  rw [C30_angle, onSphere_eq, onSphere_eq]
  have hpi : (180 / Real.pi : ℝ) ≠ 0 := by positivity
  rw [mul_eq_zero, or_iff_right hpi, InnerProductGeometry.angle_eq_zero_iff]
  constructor
  · rintro ⟨-, r, hr, e⟩
    have := congrArg norm e
    rw [norm_smul, norm_sphereVec, norm_sphereVec, mul_one, Real.norm_of_nonneg hr.le] at this
    rw [e, ← this, one_smul]
  · intro e
    refine ⟨fun h => ?_, 1, one_pos, by rw [e, one_smul]⟩
    have := norm_sphereVec lon1 lat1
    rw [h, norm_zero] at this
    exact zero_ne_one this

theorem C30_self (lon lat : ℝ) : greatCircleDistance lon lat lon lat = 0 := greatCircleDistance_self _ _

theorem C30_range (lon1 lat1 lon2 lat2 : ℝ) : 0 ≤ greatCircleDistance lon1 lat1 lon2 lat2 ∧
    greatCircleDistance lon1 lat1 lon2 lat2 ≤ 180 := by
  refine ⟨greatCircleDistance_nonneg _ _ _ _, ?_⟩
  rw [C30_angle]
  have := InnerProductGeometry.angle_le_pi (onSphere (lon1, lat1)) (onSphere (lon2, lat2))
  have hpi := Real.pi_pos
  calc 180 / Real.pi * InnerProductGeometry.angle (onSphere (lon1, lat1)) (onSphere (lon2, lat2))
      ≤ 180 / Real.pi * Real.pi := by gcongr
    _ = 180 := by field_simp

theorem C30_triangle (lon1 lat1 lon2 lat2 lon3 lat3 : ℝ) : greatCircleDistance lon1 lat1 lon3 lat3 ≤
    greatCircleDistance lon1 lat1 lon2 lat2 + greatCircleDistance lon2 lat2 lon3 lat3 := by
  rw [C30_angle, C30_angle, C30_angle, ← mul_add]
  gcongr
  exact InnerProductGeometry.angle_le_angle_add_angle _ _ _

/-- Full turns of either longitude change nothing. -/
theorem C30_periodic (lon1 lat1 lon2 lat2 : ℝ) (k l : ℤ) :
    greatCircleDistance (lon1 + k * 360) lat1 (lon2 + l * 360) lat2 = greatCircleDistance lon1 lat1 lon2 lat2 := by
  have e : (lon1 + k * 360 - (lon2 + l * 360)) * Real.pi / 180 =
      (lon1 - lon2) * Real.pi / 180 + ((k - l : ℤ) : ℝ) * (2 * Real.pi) := by push_cast; ring
  unfold greatCircleDistance
  dsimp only
  rw [e, Real.cos_add_int_mul_two_pi, Real.sin_add_int_mul_two_pi]

/-- Turning the globe about its axis changes nothing. -/
theorem C30_turn (lon1 lat1 lon2 lat2 t : ℝ) :
    greatCircleDistance (lon1 + t) lat1 (lon2 + t) lat2 = greatCircleDistance lon1 lat1 lon2 lat2 := by
  unfold greatCircleDistance
  dsimp only
  rw [add_sub_add_right_eq_sub]

/-- Antipodes are 180 degrees apart. -/
theorem C30_antipode (lon lat : ℝ) : greatCircleDistance lon lat (lon + 180) (-lat) = 180 := by
  have e : onSphere (lon + 180, -lat) = -onSphere (lon, lat) := by
    have h1 : rad (lon + 180) = rad lon + Real.pi := by unfold rad; ring
    have h2 : rad (-lat) = -rad lat := by unfold rad; ring
    unfold onSphere
    rw [h1, h2, Real.cos_add_pi, Real.sin_add_pi, Real.cos_neg, Real.sin_neg]
    ext i
    fin_cases i <;> simp
  have hne : onSphere (lon, lat) ≠ 0 := by
    intro h
    have := norm_sphereVec lon lat
    rw [show sphereVec lon lat = 0 from h, norm_zero] at this
    exact zero_ne_one this
  rw [C30_angle, e, InnerProductGeometry.angle_self_neg_of_nonzero hne]
  field_simp

/-- Along a meridian it is the difference of the latitudes. -/
theorem C30_meridian (lon lat1 lat2 : ℝ) (h1 : |lat1| ≤ 90) (h2 : |lat2| ≤ 90) :
    greatCircleDistance lon lat1 lon lat2 = |lat1 - lat2| := by
  rw [C30_angle, onSphere_eq, onSphere_eq, InnerProductGeometry.angle, norm_sphereVec, norm_sphereVec,
    mul_one, div_one, inner_sphereVec]
  rw [abs_le] at h1 h2
  have hpi := Real.pi_pos
  have e : Real.sin (lat1 * Real.pi / 180) * Real.sin (lat2 * Real.pi / 180) +
      Real.cos (lat1 * Real.pi / 180) * Real.cos (lat2 * Real.pi / 180) *
        Real.cos ((lon - lon) * Real.pi / 180) = Real.cos (|lat1 - lat2| * Real.pi / 180) := by
    have : |lat1 - lat2| * Real.pi / 180 = |(lat1 - lat2) * Real.pi / 180| := by
      rw [abs_div, abs_mul, abs_of_pos hpi, abs_of_pos (by norm_num : (0 : ℝ) < 180)]
    rw [this, Real.cos_abs, show (lat1 - lat2) * Real.pi / 180 = lat1 * Real.pi / 180 - lat2 * Real.pi / 180 by ring,
      Real.cos_sub]
    simp
    ring
  have hle : |lat1 - lat2| ≤ 180 := abs_le.2 ⟨by linarith, by linarith⟩
  rw [e, Real.arccos_cos (by positivity) (by
    rw [div_le_iff₀ (by norm_num)]; nlinarith)]
  field_simp

/-- Concrete distances: equator to pole, and across the date line. -/
example : greatCircleDistance 0 0 0 90 = 90 := by
  rw [C30_meridian 0 0 90 (by norm_num) (by norm_num)]; norm_num
example : greatCircleDistance (-179) 0 179 0 = greatCircleDistance 0 0 (-2) 0 := by
  have := C30_periodic (-179) 0 179 0 1 0
  norm_num at this
  rw [← this, ← C30_turn 0 0 (-2) 0 181]
  norm_num

end
end PyKrige
