import Mathlib.Analysis.SpecialFunctions.Gaussian.GaussianIntegral
import Mathlib.Analysis.SpecialFunctions.Trigonometric.InverseDeriv
import Mathlib.Analysis.Calculus.Deriv.MeanValue
import Mathlib.Geometry.Euclidean.Angle.Unoriented.Basic
import Verif.Lemmas.Validity

/-!
The angle between points of a sphere is conditionally negative definite.

The table of `arcsin ⟪uᵢ, uⱼ⟫` is positive semidefinite: with `t = ⟪uᵢ, uⱼ⟫`, `arcsin (r t)` has the derivative
`t / √(1 - r² t²)` in `r`, which is a Gaussian mixture of `t · exp(s t²)`.
-/

set_option linter.unusedSectionVars false

namespace PyKrige
noncomputable section
open Spec Matrix Filter Topology MeasureTheory

variable {ι : Type} [Fintype ι]

theorem PSD.mul {K L : ι → ι → ℝ} (h : PSD K) (h' : PSD L) : PSD fun i j => K i j * L i j :=
  Matrix.PosSemidef.hadamard h h'

theorem psd_inner {E : Type} [NormedAddCommGroup E] [InnerProductSpace ℝ E] (u : ι → E) :
    PSD fun i j => inner ℝ (u i) (u j) := by
  rw [psd_iff]
  refine ⟨fun i j => real_inner_comm _ _, fun c => ?_⟩
  have : quad (fun i j => inner ℝ (u i) (u j)) c = inner ℝ (∑ i, c i • u i) (∑ i, c i • u i) := by
    simp only [quad, sum_inner, inner_sum, real_inner_smul_left, real_inner_smul_right]
    exact Finset.sum_congr rfl fun i _ => Finset.sum_congr rfl fun j _ => by rw [real_inner_comm]; ring
  rw [this]
  exact real_inner_self_nonneg

/-- `t · exp(s t²)`. -/
theorem psd_odd {T : ι → ι → ℝ} (h : PSD T) {s : ℝ} (hs : 0 ≤ s) : PSD fun i j => T i j * Real.exp (s * T i j ^ 2) :=
  h.mul ((h.pow 2).exp hs)

/-- The mixture. -/
theorem mixture {r t : ℝ} (hr : r ^ 2 < 1) (ht : t ^ 2 ≤ 1) :
    Integrable (fun x : ℝ => Real.exp (-x ^ 2) * (t * Real.exp ((r ^ 2 * x ^ 2) * t ^ 2))) ∧
    ∫ x : ℝ, Real.exp (-x ^ 2) * (t * Real.exp ((r ^ 2 * x ^ 2) * t ^ 2)) =
      Real.sqrt Real.pi * (t / Real.sqrt (1 - (r * t) ^ 2)) := by
  have hb : 0 < 1 - (r * t) ^ 2 := by
    have : (r * t) ^ 2 ≤ r ^ 2 := by rw [mul_pow]; nlinarith [sq_nonneg r]
    linarith
  have e : (fun x : ℝ => Real.exp (-x ^ 2) * (t * Real.exp ((r ^ 2 * x ^ 2) * t ^ 2))) =
      fun x => t * Real.exp (-(1 - (r * t) ^ 2) * x ^ 2) := by
    funext x
    rw [mul_left_comm, ← Real.exp_add]
    congr 2
    ring
  rw [e]
  refine ⟨(integrable_exp_neg_mul_sq hb).const_mul t, ?_⟩
  rw [integral_const_mul, integral_gaussian, Real.sqrt_div Real.pi_pos.le]
  ring

theorem quad_mixture {T : ι → ι → ℝ} (hT : ∀ i j, T i j ^ 2 ≤ 1) {r : ℝ} (hr : r ^ 2 < 1) (c : ι → ℝ) :
    Integrable (fun x : ℝ => Real.exp (-x ^ 2) * quad (fun i j => T i j * Real.exp ((r ^ 2 * x ^ 2) * T i j ^ 2)) c) ∧
    ∫ x : ℝ, Real.exp (-x ^ 2) * quad (fun i j => T i j * Real.exp ((r ^ 2 * x ^ 2) * T i j ^ 2)) c =
      Real.sqrt Real.pi * quad (fun i j => T i j / Real.sqrt (1 - (r * T i j) ^ 2)) c := by
  have e : (fun x : ℝ => Real.exp (-x ^ 2) * quad (fun i j => T i j * Real.exp ((r ^ 2 * x ^ 2) * T i j ^ 2)) c) =
      fun x => ∑ i, ∑ j, c i * c j * (Real.exp (-x ^ 2) * (T i j * Real.exp ((r ^ 2 * x ^ 2) * T i j ^ 2))) := by
    funext x
    simp only [quad, Finset.mul_sum]
    exact Finset.sum_congr rfl fun i _ => Finset.sum_congr rfl fun j _ => by ring
  have hi : ∀ i j, Integrable fun x : ℝ =>
      c i * c j * (Real.exp (-x ^ 2) * (T i j * Real.exp ((r ^ 2 * x ^ 2) * T i j ^ 2))) :=
    fun i j => (mixture hr (hT i j)).1.const_mul _
  rw [e]
  refine ⟨integrable_finsetSum _ fun i _ => integrable_finsetSum _ fun j _ => hi i j, ?_⟩
  rw [integral_finsetSum _ fun i _ => integrable_finsetSum _ fun j _ => hi i j]
  simp only [quad, Finset.mul_sum]
  refine Finset.sum_congr rfl fun i _ => ?_
  rw [integral_finsetSum _ fun j _ => hi i j]
  refine Finset.sum_congr rfl fun j _ => ?_
  rw [integral_const_mul, (mixture hr (hT i j)).2]
  ring

/-- `t / √(1 - r² t²)`. -/
theorem slope_nonneg {T : ι → ι → ℝ} (h : PSD T) (hT : ∀ i j, T i j ^ 2 ≤ 1) {r : ℝ} (hr : r ^ 2 < 1) (c : ι → ℝ) :
    0 ≤ quad (fun i j => T i j / Real.sqrt (1 - (r * T i j) ^ 2)) c := by
  have h1 : 0 ≤ ∫ x : ℝ, Real.exp (-x ^ 2) * quad (fun i j => T i j * Real.exp ((r ^ 2 * x ^ 2) * T i j ^ 2)) c :=
    integral_nonneg fun x => mul_nonneg (Real.exp_pos _).le ((psd_iff.1 (psd_odd h (by positivity))).2 c)
  rw [(quad_mixture hT hr c).2] at h1
  exact nonneg_of_mul_nonneg_right h1 (Real.sqrt_pos.2 Real.pi_pos)

/-- Strictly, for different points no two of which are opposite. -/
theorem slope_pos {T : ι → ι → ℝ} (h : PSD T) (h1 : ∀ i, T i i = 1) (hT : ∀ i j, i ≠ j → T i j ^ 2 < 1) {r : ℝ}
    (hr0 : 0 < r) (hr : r < 1) {c : ι → ℝ} (hc : c ≠ 0) :
    0 < quad (fun i j => T i j / Real.sqrt (1 - (r * T i j) ^ 2)) c := by
  classical
  have hT' : ∀ i j, T i j ^ 2 ≤ 1 := fun i j => by
    by_cases hij : i = j
    · subst hij; rw [h1]; norm_num
    · exact (hT i j hij).le
  have hr2 : r ^ 2 < 1 := by nlinarith
  have hS : 0 < ∑ i, c i ^ 2 := by
    obtain ⟨i, hi⟩ := Function.ne_iff.1 hc
    exact Finset.sum_pos' (fun i _ => sq_nonneg _) ⟨i, Finset.mem_univ _, by
      have hi : c i ≠ 0 := hi
      positivity⟩
  -- somewhere the integrand is positive
  have hlim : Tendsto (fun x : ℝ => quad (fun i j => T i j * Real.exp (-((1 - T i j ^ 2) * x))) c) atTop
      (𝓝 (quad (fun i j => if i = j then 1 else 0) c)) := by
    refine tendsto_finsetSum _ fun i _ => tendsto_finsetSum _ fun j _ => Tendsto.const_mul _ ?_
    beta_reduce
    by_cases hij : i = j
    · subst hij
      simp [h1]
    · rw [if_neg hij]
      have := (Real.tendsto_exp_neg_atTop_nhds_zero.comp
        (tendsto_id.const_mul_atTop (sub_pos.2 (hT i j hij)))).const_mul (T i j)
      simpa using this
  rw [quad_diag, one_mul] at hlim
  obtain ⟨y, hy, hy0⟩ := ((hlim.eventually (lt_mem_nhds hS)).and (eventually_ge_atTop (0 : ℝ))).exists
  have hpos : 0 < ∫ x : ℝ, Real.exp (-x ^ 2) * quad (fun i j => T i j * Real.exp ((r ^ 2 * x ^ 2) * T i j ^ 2)) c := by
    refine integral_pos_of_integrable_nonneg_nonzero (x := Real.sqrt y / r) ?_ (quad_mixture hT' hr2 c).1 ?_ ?_
    · unfold quad
      fun_prop
    · exact fun x => mul_nonneg (Real.exp_pos _).le ((psd_iff.1 (psd_odd h (by positivity))).2 c)
    · refine mul_ne_zero (Real.exp_pos _).ne' ?_
      have e : r ^ 2 * (Real.sqrt y / r) ^ 2 = y := by
        rw [div_pow, Real.sq_sqrt hy0]; field_simp
      rw [e]
      have e2 : quad (fun i j => T i j * Real.exp (y * T i j ^ 2)) c =
          Real.exp y * quad (fun i j => T i j * Real.exp (-((1 - T i j ^ 2) * y))) c := by
        rw [← quad_smul]
        congr 1
        funext i j
        rw [mul_left_comm, ← Real.exp_add]
        congr 2
        ring
      rw [e2]
      exact (mul_pos (Real.exp_pos _) hy).ne'
  rw [(quad_mixture hT' hr2 c).2] at hpos
  exact pos_of_mul_pos_right hpos (Real.sqrt_nonneg _)

theorem arcsin_quad_deriv {T : ι → ι → ℝ} (hT : ∀ i j, T i j ^ 2 ≤ 1) {r : ℝ} (hr : r ^ 2 < 1) (c : ι → ℝ) :
    HasDerivAt (fun r => quad (fun i j => Real.arcsin (r * T i j)) c)
      (quad (fun i j => T i j / Real.sqrt (1 - (r * T i j) ^ 2)) c) r := by
  unfold quad
  refine HasDerivAt.fun_sum fun i _ => HasDerivAt.fun_sum fun j _ => HasDerivAt.const_mul _ ?_
  have hb : (r * T i j) ^ 2 < 1 := by
    have : (r * T i j) ^ 2 ≤ r ^ 2 := by rw [mul_pow]; nlinarith [sq_nonneg r, hT i j]
    linarith
  have h1 : r * T i j ≠ -1 := fun h => by rw [h] at hb; norm_num at hb
  have h2 : r * T i j ≠ 1 := fun h => by rw [h] at hb; norm_num at hb
  have := (Real.hasDerivAt_arcsin h1 h2).comp r ((hasDerivAt_id r).mul_const (T i j))
  refine this.congr_deriv ?_
  simp
  ring

theorem arcsin_quad_continuous (T : ι → ι → ℝ) (c : ι → ℝ) :
    Continuous fun r => quad (fun i j => Real.arcsin (r * T i j)) c := by
  unfold quad
  refine continuous_finsetSum _ fun i _ => continuous_finsetSum _ fun j _ => continuous_const.mul ?_
  exact Real.continuous_arcsin.comp (continuous_id.mul continuous_const)

/-- The arcsine of a correlation is a covariance. -/
theorem psd_arcsin {T : ι → ι → ℝ} (h : PSD T) (hT : ∀ i j, T i j ^ 2 ≤ 1) : PSD fun i j => Real.arcsin (T i j) := by
  rw [psd_iff]
  refine ⟨fun i j => by rw [(psd_iff.1 h).1], fun c => ?_⟩
  have hm : MonotoneOn (fun r => quad (fun i j => Real.arcsin (r * T i j)) c) (Set.Icc 0 1) := by
    refine monotoneOn_of_deriv_nonneg (convex_Icc 0 1) (arcsin_quad_continuous T c).continuousOn ?_ ?_
    · intro r hr
      rw [interior_Icc] at hr
      exact (arcsin_quad_deriv hT (by nlinarith [hr.1, hr.2]) c).differentiableAt.differentiableWithinAt
    · intro r hr
      rw [interior_Icc] at hr
      have hr2 : r ^ 2 < 1 := by nlinarith [hr.1, hr.2]
      rw [(arcsin_quad_deriv hT hr2 c).deriv]
      exact slope_nonneg h hT hr2 c
  have := hm (Set.left_mem_Icc.2 zero_le_one) (Set.right_mem_Icc.2 zero_le_one) zero_le_one
  simpa [quad] using this

theorem arcsin_pos {T : ι → ι → ℝ} (h : PSD T) (h1 : ∀ i, T i i = 1) (hT : ∀ i j, i ≠ j → T i j ^ 2 < 1)
    {c : ι → ℝ} (hc : c ≠ 0) : 0 < quad (fun i j => Real.arcsin (T i j)) c := by
  have hT' : ∀ i j, T i j ^ 2 ≤ 1 := fun i j => by
    by_cases hij : i = j
    · subst hij; rw [h1]; norm_num
    · exact (hT i j hij).le
  have hm : StrictMonoOn (fun r => quad (fun i j => Real.arcsin (r * T i j)) c) (Set.Icc 0 1) := by
    refine strictMonoOn_of_deriv_pos (convex_Icc 0 1) (arcsin_quad_continuous T c).continuousOn ?_
    intro r hr
    rw [interior_Icc] at hr
    have hr2 : r ^ 2 < 1 := by nlinarith [hr.1, hr.2]
    rw [(arcsin_quad_deriv hT' hr2 c).deriv]
    exact slope_pos h h1 hT hr.1 hr.2 hc
  have := hm (Set.left_mem_Icc.2 zero_le_one) (Set.right_mem_Icc.2 zero_le_one) zero_lt_one
  simpa [quad] using this

section angle
variable {E : Type} [NormedAddCommGroup E] [InnerProductSpace ℝ E]

theorem sphere_inner_sq {u v : E} (hu : ‖u‖ = 1) (hv : ‖v‖ = 1) : inner ℝ u v ^ 2 ≤ 1 := by
  have := abs_real_inner_le_norm u v
  rw [hu, hv, one_mul] at this
  rw [sq_le_one_iff_abs_le_one]
  exact this

theorem angle_arcsin {u v : E} (hu : ‖u‖ = 1) (hv : ‖v‖ = 1) :
    InnerProductGeometry.angle u v = Real.pi / 2 - Real.arcsin (inner ℝ u v) := by
  unfold InnerProductGeometry.angle
  rw [hu, hv, mul_one, div_one, Real.arccos_eq_pi_div_two_sub_arcsin]

/-- The angle between points of the sphere is conditionally negative definite. -/
theorem condNeg_angle {u : ι → E} (hu : ∀ i, ‖u i‖ = 1) :
    CondNeg fun i j => InnerProductGeometry.angle (u i) (u j) := by
  simp only [angle_arcsin (hu _) (hu _)]
  exact (psd_arcsin (psd_inner u) fun i j => sphere_inner_sq (hu i) (hu j)).sub _

/-- ... strictly so for different points no two of which are opposite. -/
theorem strictCondNeg_angle {u : ι → E} (hu : ∀ i, ‖u i‖ = 1) (hne : ∀ i j, i ≠ j → u i ≠ u j ∧ u i ≠ -u j) :
    StrictCondNeg fun i j => InnerProductGeometry.angle (u i) (u j) := by
  simp only [angle_arcsin (hu _) (hu _)]
  refine strict_sub (fun i j => by rw [real_inner_comm]) (fun c hc => ?_) _
  refine arcsin_pos (psd_inner u) (fun i => by rw [real_inner_self_eq_norm_sq, hu, one_pow]) (fun i j hij => ?_) hc
  refine lt_of_le_of_ne (sphere_inner_sq (hu i) (hu j)) fun h => ?_
  rw [sq] at h
  rcases mul_self_eq_one_iff.1 h with h | h
  · exact (hne i j hij).1 ((inner_eq_one_iff_of_norm_eq_one (hu i) (hu j)).1 h)
  · exact (hne i j hij).2 ((inner_eq_neg_one_iff_of_norm_eq_one (hu i) (hu j)).1 h)

end angle

end
end PyKrige
