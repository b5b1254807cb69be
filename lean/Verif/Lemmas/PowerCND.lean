import Mathlib.Analysis.InnerProductSpace.Basic
import Mathlib.MeasureTheory.Integral.IntegralEqImproper
import Mathlib.Analysis.SpecialFunctions.Integrals.Basic
import Mathlib.Analysis.SpecialFunctions.ImproperIntegrals
import Mathlib.MeasureTheory.Measure.Haar.NormedSpace
import Verif.Lemmas.CondNeg

/-!
Powers of Euclidean distances are valid variograms (exponent between 0 and 2).
-/

set_option linter.unusedSectionVars false

namespace PyKrige
noncomputable section
open Spec MeasureTheory Set

variable {ι : Type} [Fintype ι] {E : Type} [NormedAddCommGroup E] [InnerProductSpace ℝ E]

theorem quad_sqdist (x : ι → E) {c : ι → ℝ} (hc : ∑ i, c i = 0) :
    quad (fun i j => ‖x i - x j‖ ^ 2) c = -2 * ‖∑ i, c i • x i‖ ^ 2 := by
  have e : (fun i j => ‖x i - x j‖ ^ 2) = fun i j =>
      ((‖x i‖ ^ 2 + ‖x j‖ ^ 2) + (-2) * inner ℝ (x i) (x j)) := by
    funext i j
    rw [@norm_sub_sq ℝ]
    simp only [RCLike.re_to_real]
    ring
  rw [e, quad_add, quad_add, quad_left, quad_right, hc, quad_smul, ← real_inner_self_eq_norm_sq, sum_inner]
  simp only [quad, inner_sum, inner_smul_left, inner_smul_right]
  simp only [mul_zero, zero_mul, zero_add, RCLike.conj_to_real, Finset.mul_sum, Finset.sum_const_zero]
  exact Finset.sum_congr rfl fun i _ => Finset.sum_congr rfl fun j _ => by ring

theorem condNeg_sqdist (x : ι → E) : CondNeg fun i j => ‖x i - x j‖ ^ 2 where
  symm i j := by rw [norm_sub_rev]
  contrast c hc := by
    have := quad_sqdist x hc
    unfold quad at this
    rw [this]
    nlinarith [sq_nonneg ‖∑ i, c i • x i‖]

/-- `∫₀^∞ (1 - exp (-t s)) t^(-1-α) dt` -/
def levy (α s : ℝ) : ℝ := ∫ t in Ioi (0 : ℝ), (1 - Real.exp (-(t * s))) * t ^ (-1 - α)

theorem levy_integrable {α s : ℝ} (h0 : 0 < α) (h1 : α < 1) (hs : 0 ≤ s) :
    IntegrableOn (fun t : ℝ => (1 - Real.exp (-(t * s))) * t ^ (-1 - α)) (Ioi 0) := by
  have hb : ∀ t : ℝ, 0 < t → 0 ≤ 1 - Real.exp (-(t * s)) := fun t ht => by
    have : Real.exp (-(t * s)) ≤ 1 := Real.exp_le_one_iff.2 (by nlinarith)
    linarith
  have hmeas : ∀ S : Set ℝ, AEStronglyMeasurable (fun t : ℝ => (1 - Real.exp (-(t * s))) * t ^ (-1 - α))
      (volume.restrict S) := fun S => by
    refine Measurable.aestronglyMeasurable ?_
    fun_prop
  rw [← Ioc_union_Ioi_eq_Ioi (zero_le_one' ℝ)]
  refine IntegrableOn.union ?_ ?_
  · have hi : IntegrableOn (fun t : ℝ => s * t ^ (-α)) (Ioc 0 1) := by
      have := (intervalIntegral.intervalIntegrable_rpow' (a := 0) (b := 1) (r := -α) (by linarith)).const_mul s
      rwa [intervalIntegrable_iff_integrableOn_Ioc_of_le zero_le_one] at this
    refine hi.mono' (hmeas _) ?_
    refine (ae_restrict_mem measurableSet_Ioc).mono fun t ht => ?_
    have ht0 : 0 < t := ht.1
    rw [Real.norm_eq_abs, abs_of_nonneg (mul_nonneg (hb t ht0) (by positivity))]
    have e : t ^ (-α) = t * t ^ (-1 - α) := by
      rw [← Real.rpow_one_add' ht0.le (by linarith)]; congr 1; ring
    rw [e, ← mul_assoc]
    refine mul_le_mul_of_nonneg_right ?_ (by positivity)
    have := Real.add_one_le_exp (-(t * s))
    nlinarith
  · have hi : IntegrableOn (fun t : ℝ => t ^ (-1 - α)) (Ioi 1) :=
      integrableOn_Ioi_rpow_of_lt (by linarith) one_pos
    refine hi.mono' (hmeas _) ?_
    refine (ae_restrict_mem measurableSet_Ioi).mono fun t ht => ?_
    have ht0 : (0 : ℝ) < t := lt_trans one_pos ht
    rw [Real.norm_eq_abs, abs_of_nonneg (mul_nonneg (hb t ht0) (by positivity))]
    have := Real.exp_pos (-(t * s))
    have h2 : (0 : ℝ) ≤ t ^ (-1 - α) := by positivity
    nlinarith

/-- Scaling. -/
theorem levy_eq {α s : ℝ} (h0 : 0 < α) (hs : 0 ≤ s) : levy α s = s ^ α * levy α 1 := by
  rcases hs.eq_or_lt with rfl | hs
  · simp [levy, Real.zero_rpow h0.ne']
  unfold levy
  have h := integral_comp_mul_left_Ioi (fun u : ℝ => (1 - Real.exp (-(u * 1))) * u ^ (-1 - α)) 0 hs
  rw [mul_zero] at h
  have e : ∫ t in Ioi (0 : ℝ), (1 - Real.exp (-(s * t * 1))) * (s * t) ^ (-1 - α) =
      s ^ (-1 - α) * ∫ t in Ioi (0 : ℝ), (1 - Real.exp (-(t * s))) * t ^ (-1 - α) := by
    rw [← integral_const_mul]
    refine setIntegral_congr_fun measurableSet_Ioi fun t ht => ?_
    have ht0 : (0 : ℝ) < t := ht
    rw [Real.mul_rpow hs.le ht0.le, mul_one, mul_comm s t]
    ring
  rw [e] at h
  have hne : s ^ (-1 - α) ≠ 0 := by positivity
  have : ∫ t in Ioi (0 : ℝ), (1 - Real.exp (-(t * s))) * t ^ (-1 - α) =
      (s ^ (-1 - α))⁻¹ * (s⁻¹ • ∫ t in Ioi (0 : ℝ), (1 - Real.exp (-(t * 1))) * t ^ (-1 - α)) := by
    rw [← h, ← mul_assoc, inv_mul_cancel₀ hne, one_mul]
  rw [this, smul_eq_mul, ← mul_assoc]
  congr 1
  rw [← Real.rpow_neg hs.le, ← Real.rpow_neg_one s, ← Real.rpow_add hs]
  congr 1; ring

theorem levy_pos {α : ℝ} (h0 : 0 < α) (h1 : α < 1) : 0 < levy α 1 := by
  unfold levy
  rw [setIntegral_pos_iff_support_of_nonneg_ae ?_ (levy_integrable h0 h1 zero_le_one)]
  · have : Ioi (0 : ℝ) ⊆ Function.support (fun t : ℝ => (1 - Real.exp (-(t * 1))) * t ^ (-1 - α)) ∩ Ioi 0 := by
      intro t ht
      refine ⟨?_, ht⟩
      have ht0 : (0 : ℝ) < t := ht
      have h3 : Real.exp (-(t * 1)) < 1 := Real.exp_lt_one_iff.2 (by linarith)
      have h4 : (0 : ℝ) < t ^ (-1 - α) := by positivity
      exact (mul_pos (by linarith) h4).ne'
    exact lt_of_lt_of_le (by simp) (measure_mono this)
  · refine (ae_restrict_mem measurableSet_Ioi).mono fun t ht => ?_
    have ht0 : (0 : ℝ) < t := ht
    have h3 : Real.exp (-(t * 1)) < 1 := Real.exp_lt_one_iff.2 (by linarith)
    have h4 : (0 : ℝ) < t ^ (-1 - α) := by positivity
    exact (mul_pos (by linarith) h4).le

/-- The form of a power of a non-negative table, as an integral of forms of exponentials. -/
theorem quad_rpow {G : ι → ι → ℝ} (h0 : ∀ i j, 0 ≤ G i j) {α : ℝ} (hα : 0 < α) (hα1 : α < 1) {c : ι → ℝ}
    (hc : ∑ i, c i = 0) :
    IntegrableOn (fun t : ℝ => quad (fun i j => Real.exp (-(t * G i j))) c * t ^ (-1 - α)) (Ioi 0) ∧
    levy α 1 * quad (fun i j => G i j ^ α) c =
      -∫ t in Ioi (0 : ℝ), quad (fun i j => Real.exp (-(t * G i j))) c * t ^ (-1 - α) := by
  have hint : ∀ i j, IntegrableOn (fun t : ℝ => c i * c j * ((1 - Real.exp (-(t * G i j))) * t ^ (-1 - α))) (Ioi 0) :=
    fun i j => (levy_integrable hα hα1 (h0 i j)).const_mul _
  have e : ∀ t : ℝ, ∑ i, ∑ j, c i * c j * ((1 - Real.exp (-(t * G i j))) * t ^ (-1 - α)) =
      -(quad (fun i j => Real.exp (-(t * G i j))) c * t ^ (-1 - α)) := fun t => by
    have : quad (fun i j => 1 + (-1) * Real.exp (-(t * G i j))) c = -quad (fun i j => Real.exp (-(t * G i j))) c := by
      rw [quad_add (fun _ _ => 1), quad_const, quad_smul, hc]; ring
    rw [← neg_mul, ← this]
    simp only [quad, Finset.sum_mul]
    exact Finset.sum_congr rfl fun i _ => Finset.sum_congr rfl fun j _ => by ring
  have hI : IntegrableOn (fun t : ℝ => ∑ i, ∑ j, c i * c j * ((1 - Real.exp (-(t * G i j))) * t ^ (-1 - α))) (Ioi 0) :=
    integrable_finsetSum _ fun i _ => integrable_finsetSum _ fun j _ => hint i j
  have hval : ∫ t in Ioi (0 : ℝ), ∑ i, ∑ j, c i * c j * ((1 - Real.exp (-(t * G i j))) * t ^ (-1 - α)) =
      levy α 1 * quad (fun i j => G i j ^ α) c := by
    rw [integral_finsetSum _ fun i _ => integrable_finsetSum _ fun j _ => hint i j]
    unfold quad
    rw [Finset.mul_sum]
    refine Finset.sum_congr rfl fun i _ => ?_
    rw [integral_finsetSum _ fun j _ => hint i j, Finset.mul_sum]
    refine Finset.sum_congr rfl fun j _ => ?_
    rw [integral_const_mul]
    have := levy_eq hα (h0 i j)
    unfold levy at this
    rw [this]
    unfold levy
    ring
  simp only [e] at hI hval
  refine ⟨by simpa using hI.neg, ?_⟩
  rw [← hval, integral_neg]

/-- A power with exponent in `(0, 1)` of a valid non-negative variogram is valid. -/
theorem Spec.CondNeg.rpow {G : ι → ι → ℝ} (h : CondNeg G) (h0 : ∀ i j, 0 ≤ G i j) {α : ℝ} (hα : 0 < α)
    (hα1 : α < 1) : CondNeg fun i j => G i j ^ α where
  symm i j := by rw [h.symm]
  contrast c hc := by
    have key := (quad_rpow h0 hα hα1 hc).2
    have hn : 0 ≤ ∫ t in Ioi (0 : ℝ), quad (fun i j => Real.exp (-(t * G i j))) c * t ^ (-1 - α) := by
      refine setIntegral_nonneg measurableSet_Ioi fun t ht => ?_
      have ht0 : (0 : ℝ) < t := ht
      exact mul_nonneg ((psd_iff.1 (h.exp ht0.le)).2 c) (by positivity)
    have := levy_pos hα hα1
    change quad _ c ≤ 0
    by_contra hcon
    push Not at hcon
    have := mul_pos this hcon
    linarith

/-- Strictly so if it is zero exactly on the diagonal. -/
theorem Spec.CondNeg.rpow_strict {G : ι → ι → ℝ} (h : CondNeg G) (h0 : ∀ i, G i i = 0)
    (hpos : ∀ i j, i ≠ j → 0 < G i j) {α : ℝ} (hα : 0 < α) (hα1 : α < 1) :
    StrictCondNeg fun i j => G i j ^ α where
  symm i j := by rw [h.symm]
  contrast c hc hne := by
    have hnn : ∀ i j, 0 ≤ G i j := fun i j => by
      by_cases e : i = j
      · rw [e, h0]
      · exact (hpos i j e).le
    obtain ⟨hI, key⟩ := quad_rpow hnn hα hα1 hc
    have hp : ∀ t : ℝ, 0 < t → 0 < quad (fun i j => Real.exp (-(t * G i j))) c * t ^ (-1 - α) := fun t ht =>
      mul_pos (h.exp_pos h0 hpos ht hne) (by positivity)
    have hn : 0 < ∫ t in Ioi (0 : ℝ), quad (fun i j => Real.exp (-(t * G i j))) c * t ^ (-1 - α) := by
      rw [setIntegral_pos_iff_support_of_nonneg_ae ?_ hI]
      · have : Ioi (0 : ℝ) ⊆ Function.support
            (fun t : ℝ => quad (fun i j => Real.exp (-(t * G i j))) c * t ^ (-1 - α)) ∩ Ioi 0 :=
          fun t ht => ⟨(hp t ht).ne', ht⟩
        exact lt_of_lt_of_le (by simp) (measure_mono this)
      · exact (ae_restrict_mem measurableSet_Ioi).mono fun t ht => (hp t ht).le
    have := levy_pos hα hα1
    change quad _ c < 0
    by_contra hcon
    push Not at hcon
    have := mul_nonneg this.le hcon
    linarith

/-! ### Euclidean distances -/

theorem sq_rpow_half {r : ℝ} (hr : 0 ≤ r) (p : ℝ) : (r ^ 2) ^ (p / 2) = r ^ p := by
  rw [← Real.rpow_natCast, ← Real.rpow_mul hr]; congr 1; push_cast; ring

theorem condNeg_dist_rpow (x : ι → E) {p : ℝ} (h0 : 0 < p) (h2 : p < 2) : CondNeg fun i j => ‖x i - x j‖ ^ p := by
  have := (condNeg_sqdist x).rpow (fun i j => sq_nonneg _) (α := p / 2) (by linarith) (by linarith)
  simpa only [sq_rpow_half (norm_nonneg _)] using this

theorem strictCondNeg_dist_rpow {x : ι → E} (hx : Function.Injective x) {p : ℝ} (h0 : 0 < p) (h2 : p < 2) :
    StrictCondNeg fun i j => ‖x i - x j‖ ^ p := by
  have := (condNeg_sqdist x).rpow_strict (fun i => by simp)
    (fun i j hij => by have := norm_pos_iff.2 (sub_ne_zero.2 (hx.ne hij)); positivity)
    (α := p / 2) (by linarith) (by linarith)
  simpa only [sq_rpow_half (norm_nonneg _)] using this

theorem condNeg_dist (x : ι → E) : CondNeg fun i j => ‖x i - x j‖ := by
  simpa using condNeg_dist_rpow x one_pos one_lt_two

theorem strictCondNeg_dist {x : ι → E} (hx : Function.Injective x) : StrictCondNeg fun i j => ‖x i - x j‖ := by
  simpa using strictCondNeg_dist_rpow hx one_pos one_lt_two

end
end PyKrige
