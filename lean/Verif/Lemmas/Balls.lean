import Mathlib.MeasureTheory.Measure.Lebesgue.VolumeOfBalls
import Mathlib.MeasureTheory.Measure.Haar.InnerProductSpace
import Mathlib.Analysis.InnerProductSpace.Projection.Reflection
import Mathlib.Analysis.SpecialFunctions.Integrals.Basic
import Mathlib.MeasureTheory.Integral.Prod
import Mathlib.Analysis.InnerProductSpace.ProdL2
import Mathlib.Analysis.InnerProductSpace.Convex
import Verif.Lemmas.CondNeg

/-!
The overlap of two balls of three-dimensional space, and the spherical covariance.
-/

set_option linter.unusedSectionVars false

namespace PyKrige
noncomputable section
open Spec MeasureTheory Set Metric

/-- Three-dimensional Euclidean space, as line times plane. -/
abbrev E3 := WithLp 2 (ℝ × EuclideanSpace ℝ (Fin 2))

/-- The volume of the intersection of two balls of radius `R`. -/
def overlap (R : ℝ) (x y : E3) : ℝ := volume.real (closedBall x R ∩ closedBall y R)

/-- Translation and rotation. -/
theorem overlap_congr (R : ℝ) {x y x' y' : E3} (h : ‖x - y‖ = ‖x' - y'‖) : overlap R x y = overlap R x' y' := by
  have h1 : ∀ x y : E3, overlap R x y = overlap R 0 (y - x) := fun x y => by
    unfold overlap
    have := measure_preimage_add volume x (closedBall x R ∩ closedBall y R)
    unfold Measure.real
    rw [← this]
    congr 2
    ext z
    simp only [mem_preimage, mem_inter_iff, mem_closedBall, dist_eq_norm]
    simp only [add_sub_cancel_left, sub_zero]
    rw [show x + z - y = z - (y - x) by abel]
  have h2 : ∀ v w : E3, ‖v‖ = ‖w‖ → overlap R 0 v = overlap R 0 w := fun v w hvw => by
    let f := (ℝ ∙ (v - w))ᗮ.reflection
    have hf : f v = w := Submodule.reflection_sub hvw
    have hm := f.measurePreserving
    unfold overlap
    rw [← hm.measureReal_preimage (s := closedBall 0 R ∩ closedBall w R)
      (isClosed_closedBall.inter isClosed_closedBall).measurableSet.nullMeasurableSet]
    congr 1
    ext z
    simp only [mem_preimage, mem_inter_iff, mem_closedBall, dist_eq_norm, sub_zero]
    rw [← hf, ← map_sub, LinearIsometryEquiv.norm_map, LinearIsometryEquiv.norm_map]
  rw [h1 x y, h1 x' y']
  exact h2 _ _ (by rw [norm_sub_rev, h, norm_sub_rev])

/-- One slice. -/
theorem slice_volume (φ : ℝ) : volume {y : EuclideanSpace ℝ (Fin 2) | ‖y‖ ^ 2 ≤ φ} = ENNReal.ofReal (φ * Real.pi) := by
  by_cases h : 0 ≤ φ
  · have : {y : EuclideanSpace ℝ (Fin 2) | ‖y‖ ^ 2 ≤ φ} = closedBall 0 (Real.sqrt φ) := by
      ext y
      simp only [mem_ofPred_eq, mem_closedBall, dist_zero_right]
      exact (Real.le_sqrt (norm_nonneg _) h).symm
    rw [this, EuclideanSpace.volume_closedBall_fin_two, ← ENNReal.ofReal_pow (Real.sqrt_nonneg _), Real.sq_sqrt h,
      ENNReal.ofReal_mul h, ← NNReal.coe_real_pi, ENNReal.ofReal_coe_nnreal]
  · push Not at h
    have : {y : EuclideanSpace ℝ (Fin 2) | ‖y‖ ^ 2 ≤ φ} = ∅ := by
      ext y
      simp only [mem_ofPred_eq, mem_empty_iff_false, iff_false, not_le]
      exact lt_of_lt_of_le h (by positivity)
    rw [this, measure_empty, ENNReal.ofReal_of_nonpos]
    nlinarith [Real.pi_pos]

/-- Half-width squared of the lens at height `t`. -/
def lens (R r t : ℝ) : ℝ := min (R ^ 2 - t ^ 2) (R ^ 2 - (t - r) ^ 2)

theorem overlap_lintegral {R r : ℝ} (hR : 0 ≤ R) :
    volume (closedBall (0 : E3) R ∩ closedBall (WithLp.toLp 2 (r, 0)) R) =
      ∫⁻ t : ℝ, ENNReal.ofReal (lens R r t * Real.pi) := by
  have hm := WithLp.volume_preserving_toLp ℝ (EuclideanSpace ℝ (Fin 2))
  have hms : MeasurableSet (closedBall (0 : E3) R ∩ closedBall (WithLp.toLp 2 (r, 0)) R) :=
    (isClosed_closedBall.inter isClosed_closedBall).measurableSet
  rw [← hm.measure_preimage hms.nullMeasurableSet, Measure.volume_eq_prod, Measure.prod_apply (hm.measurable hms)]
  refine lintegral_congr fun t => ?_
  rw [← slice_volume]
  congr 1
  ext y
  have e1 : ‖WithLp.toLp 2 (t, y)‖ ≤ R ↔ ‖y‖ ^ 2 ≤ R ^ 2 - t ^ 2 := by
    rw [← sq_le_sq₀ (norm_nonneg _) hR, WithLp.prod_norm_sq_eq_of_L2]
    simp only [Real.norm_eq_abs, sq_abs]
    change t ^ 2 + ‖y‖ ^ 2 ≤ R ^ 2 ↔ _
    constructor <;> intro h <;> linarith
  have e2 : ‖WithLp.toLp 2 (t, y) - WithLp.toLp 2 (r, 0)‖ ≤ R ↔ ‖y‖ ^ 2 ≤ R ^ 2 - (t - r) ^ 2 := by
    rw [← WithLp.toLp_sub, ← sq_le_sq₀ (norm_nonneg _) hR, WithLp.prod_norm_sq_eq_of_L2]
    simp only [Prod.mk_sub_mk, sub_zero, Real.norm_eq_abs, sq_abs]
    change (t - r) ^ 2 + ‖y‖ ^ 2 ≤ R ^ 2 ↔ _
    constructor <;> intro h <;> linarith
  simp only [mem_preimage, mem_inter_iff, mem_closedBall, dist_eq_norm, sub_zero, mem_ofPred_eq, lens, le_min_iff]
  rw [e1, e2]

theorem overlap_axis {R r : ℝ} (hR : 0 ≤ R) (hr : 0 ≤ r) (h : r ≤ 2 * R) :
    overlap R 0 (WithLp.toLp 2 (r, 0)) = Real.pi * (4 / 3 * R ^ 3 - R ^ 2 * r + r ^ 3 / 12) := by
  have hcont : Continuous fun t => lens R r t * Real.pi := by unfold lens; fun_prop
  have e0 : ∫⁻ t : ℝ, ENNReal.ofReal (lens R r t * Real.pi) =
      ∫⁻ t in Icc (r - R) R, ENNReal.ofReal (lens R r t * Real.pi) := by
    rw [← lintegral_indicator measurableSet_Icc]
    refine lintegral_congr fun t => ?_
    by_cases ht : t ∈ Icc (r - R) R
    · rw [indicator_of_mem ht]
    · rw [indicator_of_notMem ht]
      apply ENNReal.ofReal_of_nonpos
      have : lens R r t ≤ 0 := by
        unfold lens
        simp only [mem_Icc, not_and_or, not_le] at ht
        rcases ht with ht | ht
        · exact (min_le_right _ _).trans (by nlinarith)
        · exact (min_le_left _ _).trans (by nlinarith)
      nlinarith [Real.pi_pos]
  have hnn : ∀ t ∈ Icc (r - R) R, 0 ≤ lens R r t * Real.pi := fun t ht => by
    refine mul_nonneg (le_min ?_ ?_) Real.pi_pos.le
    · nlinarith [ht.1, ht.2]
    · nlinarith [ht.1, ht.2]
  have hint : IntegrableOn (fun t => lens R r t * Real.pi) (Icc (r - R) R) := hcont.integrableOn_Icc
  have e1 : ∫⁻ t in Icc (r - R) R, ENNReal.ofReal (lens R r t * Real.pi) =
      ENNReal.ofReal (∫ t in Icc (r - R) R, lens R r t * Real.pi) :=
    (ofReal_integral_eq_lintegral_ofReal hint
      ((ae_restrict_mem measurableSet_Icc).mono fun t ht => hnn t ht)).symm
  unfold overlap Measure.real
  rw [overlap_lintegral hR, e0, e1, ENNReal.toReal_ofReal (setIntegral_nonneg measurableSet_Icc hnn),
    integral_Icc_eq_integral_Ioc, ← intervalIntegral.integral_of_le (by linarith),
    ← intervalIntegral.integral_add_adjacent_intervals (b := r / 2) (hcont.intervalIntegrable _ _)
      (hcont.intervalIntegrable _ _)]
  have l1 : ∫ t in (r - R)..(r / 2), lens R r t * Real.pi = ∫ t in (r - R)..(r / 2), (R ^ 2 - (t - r) ^ 2) * Real.pi := by
    refine intervalIntegral.integral_congr fun t ht => ?_
    rw [uIcc_of_le (by linarith)] at ht
    rw [lens, min_eq_right]
    nlinarith [ht.2]
  have l2 : ∫ t in (r / 2)..R, lens R r t * Real.pi = ∫ t in (r / 2)..R, (R ^ 2 - t ^ 2) * Real.pi := by
    refine intervalIntegral.integral_congr fun t ht => ?_
    rw [uIcc_of_le (by linarith)] at ht
    rw [lens, min_eq_left]
    nlinarith [ht.1]
  rw [l1, l2, intervalIntegral.integral_mul_const, intervalIntegral.integral_mul_const,
    intervalIntegral.integral_comp_sub_right (fun t => R ^ 2 - t ^ 2), intervalIntegral.integral_sub (by simp) (by simp),
    intervalIntegral.integral_sub (by simp) (by simp)]
  simp only [intervalIntegral.integral_const, integral_pow, smul_eq_mul]
  push_cast
  ring

/-- The overlap of balls of radius `R` whose centres are `r ≤ 2 R` apart. -/
theorem overlap_near {R : ℝ} (hR : 0 ≤ R) {x y : E3} (h : ‖x - y‖ ≤ 2 * R) :
    overlap R x y = Real.pi * (4 / 3 * R ^ 3 - R ^ 2 * ‖x - y‖ + ‖x - y‖ ^ 3 / 12) := by
  rw [← overlap_axis hR (norm_nonneg _) h]
  refine overlap_congr R ?_
  rw [zero_sub, norm_neg]
  have hr := norm_nonneg (x - y)
  generalize ‖x - y‖ = r at hr
  apply (sq_eq_sq₀ (norm_nonneg _) hr).1 ?_ |>.symm
  rw [WithLp.prod_norm_sq_eq_of_L2]
  simp

theorem overlap_far {R : ℝ} {x y : E3} (h : 2 * R < ‖x - y‖) : overlap R x y = 0 := by
  have : closedBall x R ∩ closedBall y R = ∅ := by
    ext z
    simp only [mem_inter_iff, mem_closedBall, mem_empty_iff_false, iff_false, not_and_or, not_le, dist_eq_norm]
    by_contra hc
    push Not at hc
    have := norm_sub_le_norm_sub_add_norm_sub x z y
    rw [norm_sub_rev x z] at this
    linarith
  rw [overlap, this, measureReal_empty]

variable {ι : Type} [Fintype ι]

open Classical in
/-- The sum of the indicator functions of the balls, weighted. -/
def bump (R : ℝ) (x : ι → E3) (c : ι → ℝ) (z : E3) : ℝ := ∑ i, c i * (closedBall (x i) R).indicator 1 z

theorem quad_overlap (R : ℝ) (x : ι → E3) (c : ι → ℝ) :
    Integrable (fun z => bump R x c z ^ 2) ∧
      quad (fun i j => overlap R (x i) (x j)) c = ∫ z, bump R x c z ^ 2 := by
  have e : ∀ z, bump R x c z ^ 2 = ∑ i, ∑ j, c i * c j *
      (closedBall (x i) R ∩ closedBall (x j) R).indicator (1 : E3 → ℝ) z := fun z => by
    rw [bump, sq, Finset.sum_mul_sum]
    refine Finset.sum_congr rfl fun i _ => Finset.sum_congr rfl fun j _ => ?_
    rw [inter_indicator_one]
    simp only [Pi.mul_apply]
    ring
  have hms : ∀ i j, MeasurableSet (closedBall (x i) R ∩ closedBall (x j) R) := fun i j =>
    (isClosed_closedBall.inter isClosed_closedBall).measurableSet
  have hfin : ∀ i j, volume (closedBall (x i) R ∩ closedBall (x j) R) ≠ ⊤ := fun i j =>
    ((measure_mono inter_subset_left).trans_lt measure_closedBall_lt_top).ne
  have hint : ∀ i j, Integrable fun z => c i * c j *
      (closedBall (x i) R ∩ closedBall (x j) R).indicator (1 : E3 → ℝ) z := fun i j =>
    ((integrable_indicator_iff (hms i j)).2 (integrableOn_const (hfin i j))).const_mul _
  refine ⟨?_, ?_⟩
  · simp only [e]
    exact integrable_finsetSum _ fun i _ => integrable_finsetSum _ fun j _ => hint i j
  · simp only [e]
    rw [integral_finsetSum _ fun i _ => integrable_finsetSum _ fun j _ => hint i j]
    refine Finset.sum_congr rfl fun i _ => ?_
    rw [integral_finsetSum _ fun j _ => hint i j]
    refine Finset.sum_congr rfl fun j _ => ?_
    rw [integral_const_mul, integral_indicator_one (hms i j)]
    rfl

theorem psd_overlap (R : ℝ) (x : ι → E3) : PSD fun i j => overlap R (x i) (x j) := by
  rw [psd_iff]
  refine ⟨fun i j => by rw [overlap, overlap, inter_comm], fun c => ?_⟩
  rw [(quad_overlap R x c).2]
  exact integral_nonneg fun z => sq_nonneg _

open Topology in
/-- Balls with distinct centres are linearly independent. -/
theorem overlap_pos {R : ℝ} (hR : 0 < R) {x : ι → E3} (hx : Function.Injective x) {c : ι → ℝ} (hc : c ≠ 0) :
    0 < quad (fun i j => overlap R (x i) (x j)) c := by
  classical
  obtain ⟨hI, hq⟩ := quad_overlap R x c
  rw [hq]
  -- the centre farthest from the origin (among those with a non-zero coefficient)
  obtain ⟨i₀, hi₀⟩ := Function.ne_iff.1 hc
  obtain ⟨m, hm, hmax⟩ := Finset.exists_max_image (Finset.univ.filter fun i => c i ≠ 0) (fun i => ‖x i‖)
    ⟨i₀, by simpa using hi₀⟩
  have hcm : c m ≠ 0 := by simpa using hm
  -- a point in the interior of its ball and outside the other balls
  obtain ⟨z, hz1, hz2⟩ : ∃ z, ‖z - x m‖ < R ∧ ∀ j, j ≠ m → c j ≠ 0 → R < ‖z - x j‖ := by
    obtain ⟨u, hu, hu1⟩ : ∃ u : E3, ‖u‖ = R ∧ ‖x m + u‖ = ‖x m‖ + R := by
      by_cases h0 : x m = 0
      · refine ⟨WithLp.toLp 2 (R, 0), ?_, ?_⟩
        · apply (sq_eq_sq₀ (norm_nonneg _) hR.le).1
          rw [WithLp.prod_norm_sq_eq_of_L2]; simp
        · rw [h0, zero_add, norm_zero, zero_add]
          apply (sq_eq_sq₀ (norm_nonneg _) hR.le).1
          rw [WithLp.prod_norm_sq_eq_of_L2]; simp
      · have hn : 0 < ‖x m‖ := norm_pos_iff.2 h0
        refine ⟨(R / ‖x m‖) • x m, ?_, ?_⟩
        · rw [norm_smul, Real.norm_eq_abs, abs_of_pos (by positivity)]; field_simp
        · have : x m + (R / ‖x m‖) • x m = (1 + R / ‖x m‖) • x m := by rw [add_smul, one_smul]
          rw [this, norm_smul, Real.norm_eq_abs, abs_of_pos (by positivity)]; field_simp
    have hout : ∀ j, j ≠ m → c j ≠ 0 → R < ‖x m + u - x j‖ := fun j hj hcj => by
      by_contra hcon
      push Not at hcon
      have hle := hmax j (by simpa using hcj)
      have htri : ‖x m + u‖ ≤ ‖x j‖ + ‖x m + u - x j‖ := by
        have := norm_add_le (x j) (x m + u - x j); rwa [add_sub_cancel] at this
      have e1 : ‖x j‖ = ‖x m‖ := by linarith
      have e2 : ‖x m + u - x j‖ = R := by linarith
      -- equality in the triangle inequality
      have hsum : ‖x j + (x m + u - x j)‖ = ‖x j‖ + ‖x m + u - x j‖ := by rw [add_sub_cancel, e2, e1, hu1]
      have hsame := (sameRay_iff_norm_add.2 hsum)
      have hsame2 : SameRay ℝ (x m) u := sameRay_iff_norm_add.2 (by rw [hu1, hu])
      have h3 := sameRay_iff_norm_smul_eq.1 hsame
      have h4 := sameRay_iff_norm_smul_eq.1 hsame2
      rw [e2, e1] at h3
      rw [hu] at h4
      -- `‖xₘ‖ (xₘ + u - xⱼ) = R xⱼ`, `‖xₘ‖ u = R xₘ`
      have h5 : (‖x m‖ + R) • x j = (‖x m‖ + R) • x m := by
        have a1 : ‖x m‖ • (x m + u - x j) = R • x j := h3
        have a2 : ‖x m‖ • u = R • x m := h4
        rw [smul_sub, smul_add, a2] at a1
        rw [add_smul, add_smul, ← a1]; abel
      have h6 : x j = x m := by
        have : (‖x m‖ + R) ≠ 0 := by positivity
        exact smul_right_injective E3 this h5
      exact hj (hx h6)
    -- move slightly inwards
    have hev : ∀ᶠ t in 𝓝 (1 : ℝ), ∀ j, j ≠ m → c j ≠ 0 → R < ‖x m + t • u - x j‖ := by
      rw [Filter.eventually_all]
      intro j
      by_cases hj : j = m
      · exact Filter.Eventually.of_forall fun t h => absurd hj h
      by_cases hcj : c j = 0
      · exact Filter.Eventually.of_forall fun t _ h => absurd hcj h
      have hct : Continuous fun t : ℝ => ‖x m + t • u - x j‖ := by fun_prop
      have h1 : R < (fun t : ℝ => ‖x m + t • u - x j‖) 1 := by
        simp only [one_smul]; exact hout j hj hcj
      have := hct.continuousAt.eventually_const_lt h1
      exact this.mono fun t ht _ _ => ht
    have hev2 : ∀ᶠ t in 𝓝[<] (1 : ℝ), ∀ j, j ≠ m → c j ≠ 0 → R < ‖x m + t • u - x j‖ :=
      hev.filter_mono nhdsWithin_le_nhds
    have hev3 : ∀ᶠ t in 𝓝[<] (1 : ℝ), 0 < t := (eventually_gt_nhds one_pos).filter_mono nhdsWithin_le_nhds
    obtain ⟨t, ⟨ht, ht0⟩, ht1⟩ := ((hev2.and hev3).and self_mem_nhdsWithin).exists
    have ht1' : t < 1 := ht1
    refine ⟨x m + t • u, ?_, ht⟩
    rw [add_sub_cancel_left, norm_smul, hu, Real.norm_eq_abs, abs_of_pos ht0]
    nlinarith
  -- near this point the sum is `c m`
  have hnear : ∀ᶠ y in 𝓝 z, bump R x c y = c m := by
    have h1 : ∀ᶠ y in 𝓝 z, ‖y - x m‖ < R :=
      (show Continuous fun y : E3 => ‖y - x m‖ by fun_prop).continuousAt.eventually_lt_const hz1
    have h2 : ∀ᶠ y in 𝓝 z, ∀ j, j ≠ m → c j ≠ 0 → R < ‖y - x j‖ := by
      rw [Filter.eventually_all]
      intro j
      by_cases hj : j = m
      · exact Filter.Eventually.of_forall fun t h => absurd hj h
      by_cases hcj : c j = 0
      · exact Filter.Eventually.of_forall fun t _ h => absurd hcj h
      have hct : Continuous fun y : E3 => ‖y - x j‖ := by fun_prop
      exact (hct.continuousAt.eventually_const_lt (hz2 j hj hcj)).mono fun t ht _ _ => ht
    refine (h1.and h2).mono fun y ⟨hy1, hy2⟩ => ?_
    unfold bump
    rw [Finset.sum_eq_single m]
    · rw [indicator_of_mem (by rw [mem_closedBall, dist_eq_norm]; exact hy1.le)]; simp
    · intro j _ hj
      by_cases hcj : c j = 0
      · rw [hcj, zero_mul]
      · rw [indicator_of_notMem (by rw [mem_closedBall, dist_eq_norm, not_le]; exact hy2 j hj hcj), mul_zero]
    · simp
  rw [integral_pos_iff_support_of_nonneg (fun z => sq_nonneg _) hI]
  obtain ⟨U, hU, hUo, hzU⟩ := _root_.mem_nhds_iff.1 hnear
  refine lt_of_lt_of_le (hUo.measure_pos volume ⟨z, hzU⟩) (measure_mono fun y hy => ?_)
  have : bump R x c y = c m := hU hy
  simp [Function.mem_support, this, hcm]

end
end PyKrige
