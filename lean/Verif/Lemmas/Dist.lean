import Mathlib.Geometry.Euclidean.Angle.Unoriented.TriangleInequality
import Mathlib.Analysis.InnerProductSpace.PiL2
import Verif.Model.OK3D

/-! Distances: Euclidean and great-circle. -/

namespace PyKrige
noncomputable section
open Matrix

theorem euclid_nonneg {m : ℕ} (p q : Fin m → ℝ) : 0 ≤ euclid p q := Real.sqrt_nonneg _

theorem euclid_comm {m : ℕ} (p q : Fin m → ℝ) : euclid p q = euclid q p := by
  unfold euclid
  congr 1
  exact Finset.sum_congr rfl fun k _ => by ring

theorem euclid_self {m : ℕ} (p : Fin m → ℝ) : euclid p p = 0 := by simp [euclid]

theorem euclid_eq_zero {m : ℕ} {p q : Fin m → ℝ} : euclid p q = 0 ↔ p = q := by
  unfold euclid
  rw [Real.sqrt_eq_zero (Finset.sum_nonneg fun k _ => sq_nonneg _),
    Finset.sum_eq_zero_iff_of_nonneg fun k _ => sq_nonneg _]
  constructor
  · intro h
    funext k
    have := h k (Finset.mem_univ k)
    exact sub_eq_zero.1 (pow_eq_zero_iff (two_ne_zero) |>.1 this)
  · rintro rfl k _
    simp

theorem euclid_eq_dist {m : ℕ} (p q : Fin m → ℝ) :
    euclid p q = dist (WithLp.toLp 2 p : EuclideanSpace ℝ (Fin m)) (WithLp.toLp 2 q) := by
  rw [EuclideanSpace.dist_eq]
  simp [euclid, Real.dist_eq, sq_abs]

/-- The coordinates are only listed in another order. -/
theorem euclid_zyx (p q : Fin 3 → ℝ) : euclid (zyx p) (zyx q) = euclid p q := by
  unfold euclid zyx
  congr 1
  simp [Fin.sum_univ_three]
  ring

/-- The unit vector as a vector of Euclidean 3-space. -/
def sphereVec (lon lat : ℝ) : EuclideanSpace ℝ (Fin 3) := WithLp.toLp 2 (unitVector lon lat)

theorem inner_sphereVec (lon1 lat1 lon2 lat2 : ℝ) :
    inner ℝ (sphereVec lon1 lat1) (sphereVec lon2 lat2) =
      Real.sin (lat1 * Real.pi / 180) * Real.sin (lat2 * Real.pi / 180) +
      Real.cos (lat1 * Real.pi / 180) * Real.cos (lat2 * Real.pi / 180) *
        Real.cos ((lon1 - lon2) * Real.pi / 180) := by
  have : (lon1 - lon2) * Real.pi / 180 = lon1 * Real.pi / 180 - lon2 * Real.pi / 180 := by ring
  rw [this, Real.cos_sub]
  simp [sphereVec, unitVector, PiLp.inner_apply, Fin.sum_univ_three]
  ring

theorem norm_sphereVec (lon lat : ℝ) : ‖sphereVec lon lat‖ = 1 := by
  have h : inner ℝ (sphereVec lon lat) (sphereVec lon lat) = 1 := by
    rw [inner_sphereVec]
    simp
    nlinarith [Real.sin_sq_add_cos_sq (lat * Real.pi / 180)]
  rw [real_inner_self_eq_norm_sq] at h
  nlinarith [norm_nonneg (sphereVec lon lat), sq_nonneg (‖sphereVec lon lat‖ - 1)]

/-- The great-circle distance is the angle between the unit vectors, in degrees. -/
theorem greatCircleDistance_eq_angle (lon1 lat1 lon2 lat2 : ℝ) :
    greatCircleDistance lon1 lat1 lon2 lat2 =
      180 / Real.pi * InnerProductGeometry.angle (sphereVec lon1 lat1) (sphereVec lon2 lat2) := by
  unfold greatCircleDistance InnerProductGeometry.angle
  rw [norm_sphereVec, norm_sphereVec, mul_one, div_one]
  have hc := inner_sphereVec lon1 lat1 lon2 lat2
  set c : ℝ := inner ℝ (sphereVec lon1 lat1) (sphereVec lon2 lat2) with hcdef
  have habs : |c| ≤ 1 := by
    have := abs_real_inner_le_norm (sphereVec lon1 lat1) (sphereVec lon2 lat2)
    rwa [norm_sphereVec, norm_sphereVec, mul_one] at this
  dsimp only
  set a1 := lat1 * Real.pi / 180
  set a2 := lat2 * Real.pi / 180
  set dl := (lon1 - lon2) * Real.pi / 180
  have hs : (Real.cos a2 * Real.sin dl) ^ 2 +
      (Real.cos a1 * Real.sin a2 - Real.sin a1 * Real.cos a2 * Real.cos dl) ^ 2 = 1 - c ^ 2 := by
    rw [hc]
    have e1 := Real.sin_sq_add_cos_sq a1
    have e2 := Real.sin_sq_add_cos_sq a2
    have e3 := Real.sin_sq_add_cos_sq dl
    have f1 : Real.sin a1 ^ 2 = 1 - Real.cos a1 ^ 2 := by linarith
    have f2 : Real.sin a2 ^ 2 = 1 - Real.cos a2 ^ 2 := by linarith
    have f3 : Real.sin dl ^ 2 = 1 - Real.cos dl ^ 2 := by linarith
    ring_nf
    rw [f1, f2, f3]
    ring
  rw [hs, ← hc]
  congr 1
  unfold arctan2
  obtain ⟨h1, h2⟩ := abs_le.1 habs
  have : (Complex.mk c (Real.sqrt (1 - c ^ 2))) =
      Complex.cos (Real.arccos c) + Complex.sin (Real.arccos c) * Complex.I := by
    rw [← Complex.ofReal_cos, ← Complex.ofReal_sin, Real.cos_arccos h1 h2, Real.sin_arccos]
    apply Complex.ext <;> simp
  rw [this]
  exact Complex.arg_cos_add_sin_mul_I
    ⟨by linarith [Real.arccos_nonneg c, Real.pi_pos], Real.arccos_le_pi c⟩

theorem greatCircleDistance_comm (lon1 lat1 lon2 lat2 : ℝ) :
    greatCircleDistance lon1 lat1 lon2 lat2 = greatCircleDistance lon2 lat2 lon1 lat1 := by
  rw [greatCircleDistance_eq_angle, greatCircleDistance_eq_angle, InnerProductGeometry.angle_comm]

theorem greatCircleDistance_nonneg (lon1 lat1 lon2 lat2 : ℝ) :
    0 ≤ greatCircleDistance lon1 lat1 lon2 lat2 := by
  rw [greatCircleDistance_eq_angle]
  have := InnerProductGeometry.angle_nonneg (sphereVec lon1 lat1) (sphereVec lon2 lat2)
  have := Real.pi_pos
  positivity

theorem greatCircleDistance_self (lon lat : ℝ) : greatCircleDistance lon lat lon lat = 0 := by
  rw [greatCircleDistance_eq_angle, InnerProductGeometry.angle_self, mul_zero]
  intro h
  have := norm_sphereVec lon lat
  rw [h, norm_zero] at this
  exact one_ne_zero this.symm

end
end PyKrige
