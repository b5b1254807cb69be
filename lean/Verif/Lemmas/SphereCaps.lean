import Mathlib.MeasureTheory.Measure.Lebesgue.VolumeOfBalls
import Mathlib.MeasureTheory.Measure.Haar.InnerProductSpace
import Mathlib.Analysis.InnerProductSpace.Projection.Reflection
import Mathlib.Analysis.SpecialFunctions.Integrals.Basic
import Mathlib.Analysis.SpecialFunctions.PolarCoord
import Mathlib.Analysis.SpecialFunctions.Trigonometric.InverseDeriv
import Mathlib.MeasureTheory.Integral.Prod
import Mathlib.Analysis.InnerProductSpace.ProdL2
import Verif.Lemmas.Balls

/-!
The spherical covariance on the sphere, as a mixture of overlaps of caps.

A point `p` is drawn from the open unit ball of space with density `1 / √(1 - ‖p‖²)` (the shadow of the uniform
distribution on the sphere of four-dimensional space; its own shadow on a plane is uniform on the disc).  The covariance
of two points `x`, `y` of the unit sphere is the mean of `min (Ω (p·x)) (Ω (p·y))` for an increasing function `Ω`.
-/

set_option linter.unusedSectionVars false

namespace PyKrige
noncomputable section
open Spec MeasureTheory Set Metric

/-- The integral of a non-negative derivative. -/
theorem lintegral_deriv {f f' : ℝ → ℝ} {a b : ℝ} (hab : a ≤ b) (hc : ContinuousOn f (Icc a b))
    (hd : ∀ x ∈ Ioo a b, HasDerivAt f (f' x) x) (h0 : ∀ x ∈ Ioo a b, 0 ≤ f' x) :
    ∫⁻ x in Ioo a b, ENNReal.ofReal (f' x) = ENNReal.ofReal (f b - f a) := by
  have hi := intervalIntegral.integrableOn_deriv_of_nonneg hc hd h0
  have hi' : IntegrableOn f' (Ioo a b) := hi.mono_set Ioo_subset_Ioc_self
  rw [← ofReal_integral_eq_lintegral_ofReal hi' ((ae_restrict_iff' measurableSet_Ioo).2 (.of_forall h0)),
    ← integral_Ioc_eq_integral_Ioo, ← intervalIntegral.integral_of_le hab,
    intervalIntegral.integral_eq_sub_of_hasDerivAt_of_le hab hc hd ((intervalIntegrable_iff_integrableOn_Ioc_of_le hab).2 hi)]

/-- The density. -/
theorem lintegral_shadow {c : ℝ} (hc : c < 1) :
    ∫⁻ s : ℝ, ENNReal.ofReal (1 / √(1 - (s ^ 2 + c))) = ENNReal.ofReal Real.pi := by
  set A := √(1 - c) with hA
  have hA0 : 0 < A := Real.sqrt_pos.2 (by linarith)
  have hA2 : A ^ 2 = 1 - c := Real.sq_sqrt (by linarith)
  have e : ∀ s, ENNReal.ofReal (1 / √(1 - (s ^ 2 + c))) = (Ioo (-A) A).indicator (fun s => ENNReal.ofReal (1 / √(A ^ 2 - s ^ 2))) s := by
    intro s
    by_cases hs : s ∈ Ioo (-A) A
    · rw [indicator_of_mem hs, hA2]; congr 3; ring
    · rw [indicator_of_notMem hs]
      have : A ^ 2 ≤ s ^ 2 := by
        rw [mem_Ioo, not_and_or, not_lt, not_lt] at hs
        rcases hs with h | h <;> nlinarith
      rw [Real.sqrt_eq_zero_of_nonpos (by linarith)]
      simp
  rw [lintegral_congr e, lintegral_indicator measurableSet_Ioo,
    lintegral_deriv (f := fun s => Real.arcsin (s / A)) (by linarith) (by fun_prop)]
  · rw [div_self hA0.ne', neg_div, div_self hA0.ne', Real.arcsin_neg, Real.arcsin_one]; congr 1; ring
  · intro s hs
    have h1 : s / A ≠ -1 := by
      intro h; rw [div_eq_iff hA0.ne'] at h; linarith [hs.1]
    have h2 : s / A ≠ 1 := by
      intro h; rw [div_eq_iff hA0.ne'] at h; linarith [hs.2]
    have := (Real.hasDerivAt_arcsin h1 h2).comp s ((hasDerivAt_id s).div_const A)
    refine this.congr_deriv ?_
    have e : A ^ 2 - s ^ 2 = A ^ 2 * (1 - (s / A) ^ 2) := by field_simp
    rw [e, Real.sqrt_mul (sq_nonneg _), Real.sqrt_sq hA0.le]
    by_cases h0 : √(1 - (s / A) ^ 2) = 0
    · rw [h0]; simp
    · field_simp
  · intro s hs; positivity

/-! ### The profile -/

/-- The increasing function; `A` is half the range. -/
def capF (A u : ℝ) : ℝ := A ^ 2 - Real.arccos u ^ 2 + u * Real.arccos u / √(1 - u ^ 2)

/-- The same, 0 below `cos β`. -/
def capW (A β u : ℝ) : ℝ := if Real.cos β < u then capF A u else 0

theorem capF_deriv {A u : ℝ} (h1 : -1 < u) (h2 : u < 1) :
    HasDerivAt (fun u => u ^ 2 * (A ^ 2 - Real.arccos u ^ 2) / 2) (u * capF A u) u := by
  have h := Real.hasDerivAt_arccos h1.ne' h2.ne
  have h3 : 0 < √(1 - u ^ 2) := Real.sqrt_pos.2 (by nlinarith)
  have := (((hasDerivAt_pow 2 u).mul ((h.pow 2).const_sub (A ^ 2))).div_const 2)
  refine this.congr_deriv ?_
  unfold capF
  simp
  field_simp

theorem capF_arccos (A u : ℝ) : capF A u = A ^ 2 - Real.arccos u ^ 2 + u * Real.arccos u / Real.sin (Real.arccos u) := by
  rw [Real.sin_arccos]; rfl

theorem tcot_antitone : AntitoneOn (fun t => Real.cos t * t / Real.sin t) (Ioo 0 Real.pi) := by
  have hd : ∀ t ∈ Ioo 0 Real.pi, HasDerivAt (fun t => Real.cos t * t / Real.sin t)
      (((-Real.sin t * t + Real.cos t * 1) * Real.sin t - Real.cos t * t * Real.cos t) / Real.sin t ^ 2) t := fun t ht =>
    ((Real.hasDerivAt_cos t).mul (hasDerivAt_id t)).div (Real.hasDerivAt_sin t) (Real.sin_pos_of_mem_Ioo ht).ne'
  refine antitoneOn_of_deriv_nonpos (convex_Ioo _ _) (fun t ht => (hd t ht).continuousAt.continuousWithinAt) ?_ ?_
  · rw [interior_Ioo]
    exact fun t ht => (hd t ht).differentiableAt.differentiableWithinAt
  · rw [interior_Ioo]
    intro t ht
    rw [(hd t ht).deriv]
    refine div_nonpos_of_nonpos_of_nonneg ?_ (sq_nonneg _)
    have h1 := Real.sin_sq_add_cos_sq t
    have h2 : Real.sin (2 * t) ≤ 2 * t := Real.sin_le (by linarith [ht.1])
    rw [Real.sin_two_mul] at h2
    have e : (-Real.sin t * t + Real.cos t * 1) * Real.sin t - Real.cos t * t * Real.cos t =
        Real.sin t * Real.cos t - t * (Real.sin t ^ 2 + Real.cos t ^ 2) := by ring
    rw [e, h1]
    linarith

theorem arccos_mem {u : ℝ} (h1 : -1 < u) (h2 : u < 1) : Real.arccos u ∈ Ioo 0 Real.pi :=
  ⟨Real.arccos_pos.2 h2, by
    rcases (Real.arccos_le_pi u).lt_or_eq with h | h
    · exact h
    · rw [Real.arccos_eq_pi] at h; linarith⟩

theorem capF_strictMono (A : ℝ) : StrictMonoOn (capF A) (Ioo (-1) 1) := by
  intro u hu v hv huv
  have hlt : Real.arccos v < Real.arccos u := Real.strictAntiOn_arccos ⟨hu.1.le, hu.2.le⟩ ⟨hv.1.le, hv.2.le⟩ huv
  have hu' := arccos_mem hu.1 hu.2
  have hv' := arccos_mem hv.1 hv.2
  have h := tcot_antitone hv' hu' hlt.le
  simp only [Real.cos_arccos hu.1.le hu.2.le, Real.cos_arccos hv.1.le hv.2.le] at h
  rw [capF_arccos, capF_arccos]
  nlinarith [hu'.1, hv'.1]

section
variable {A β : ℝ} (hA : 0 < A) (hβ : β = min A (Real.pi / 2))
include hA hβ

theorem cap_pos : 0 < β := by rw [hβ]; exact lt_min hA (by have := Real.pi_pos; positivity)
theorem cap_le : β ≤ Real.pi / 2 := by rw [hβ]; exact min_le_right _ _
theorem cap_cos : 0 ≤ Real.cos β :=
  Real.cos_nonneg_of_neg_pi_div_two_le_of_le (by linarith [cap_pos hA hβ, Real.pi_pos]) (cap_le hA hβ)
theorem cap_zero : Real.cos β ^ 2 * (A ^ 2 - β ^ 2) = 0 := by
  rcases min_choice A (Real.pi / 2) with h | h
  · rw [hβ, h]; ring
  · rw [hβ, h, Real.cos_pi_div_two]; ring

theorem capF_pos {u : ℝ} (h : Real.cos β < u) (hu : u < 1) : 0 < capF A u := by
  have h0 := cap_cos hA hβ
  have h1 : Real.arccos u < β := by
    have := Real.strictAntiOn_arccos ⟨by linarith, by linarith⟩ ⟨by linarith, hu.le⟩ h
    rwa [Real.arccos_cos (cap_pos hA hβ).le (by linarith [cap_le hA hβ, Real.pi_pos])] at this
  have h2 : β ≤ A := by rw [hβ]; exact min_le_left _ _
  have h3 := Real.arccos_nonneg u
  have h4 : 0 ≤ u * Real.arccos u / √(1 - u ^ 2) := div_nonneg (mul_nonneg (by linarith) h3) (Real.sqrt_nonneg _)
  unfold capF
  nlinarith

theorem capW_nonneg {u : ℝ} (hu : u < 1) : 0 ≤ capW A β u := by
  unfold capW
  split_ifs with h
  · exact (capF_pos hA hβ h hu).le
  · exact le_rfl

theorem capW_mono {u v : ℝ} (huv : u ≤ v) (hv : v < 1) : capW A β u ≤ capW A β v := by
  by_cases h : Real.cos β < u
  · unfold capW
    rw [if_pos h, if_pos (h.trans_le huv)]
    have h0 := cap_cos hA hβ
    exact (capF_strictMono A).monotoneOn ⟨by linarith, by linarith⟩ ⟨by linarith, hv⟩ huv
  · have : capW A β u = 0 := if_neg h
    rw [this]
    exact capW_nonneg hA hβ hv

/-- One ray. -/
theorem cap_ray {τ : ℝ} (h0 : 0 ≤ τ) (h : τ < β) :
    ∫⁻ r in Ioo (0 : ℝ) 1, ENNReal.ofReal (r * capW A β (r * Real.cos τ)) = ENNReal.ofReal ((A ^ 2 - τ ^ 2) / 2) := by
  have hb := cap_cos hA hβ
  have hle := cap_le hA hβ
  have hpi := Real.pi_pos
  have hC : Real.cos β < Real.cos τ := Real.cos_lt_cos_of_nonneg_of_le_pi h0 (by linarith) h
  have hC1 := Real.cos_le_one τ
  set C := Real.cos τ with hCd
  have hC0 : 0 < C := by linarith
  set ρ := Real.cos β / C with hρ
  have hρ0 : 0 ≤ ρ := by positivity
  have hρ1 : ρ < 1 := by rw [hρ, div_lt_one hC0]; exact hC
  have e : ∀ r ∈ Ioo (0 : ℝ) 1, ENNReal.ofReal (r * capW A β (r * C)) =
      (Ioo ρ 1).indicator (fun r => ENNReal.ofReal (r * capF A (r * C))) r := by
    intro r hr
    have hiff : Real.cos β < r * C ↔ ρ < r := by rw [hρ, div_lt_iff₀ hC0]
    unfold capW
    by_cases hc : ρ < r
    · rw [indicator_of_mem (show r ∈ Ioo ρ 1 from ⟨hc, hr.2⟩), if_pos (hiff.2 hc)]
    · rw [indicator_of_notMem (fun hm => hc hm.1), if_neg (fun hm => hc (hiff.1 hm))]; simp
  rw [setLIntegral_congr_fun measurableSet_Ioo e, setLIntegral_indicator measurableSet_Ioo,
    inter_eq_left.2 (Ioo_subset_Ioo_left hρ0),
    lintegral_deriv (f := fun r => (r * C) ^ 2 * (A ^ 2 - Real.arccos (r * C) ^ 2) / 2 / C ^ 2) hρ1.le (by fun_prop)]
  · have e1 : ρ * C = Real.cos β := by rw [hρ]; field_simp
    rw [one_mul, hCd, Real.arccos_cos h0 (by linarith), ← hCd, e1, Real.arccos_cos (cap_pos hA hβ).le (by linarith),
      cap_zero hA hβ]
    congr 1
    field_simp
    ring
  · intro r hr
    have hr0 : 0 < r := lt_of_le_of_lt hρ0 hr.1
    have := ((capF_deriv (A := A) (u := r * C) (by nlinarith) (by nlinarith [hr.2])).comp r
      ((hasDerivAt_id r).mul_const C)).div_const (C ^ 2)
    refine this.congr_deriv ?_
    field_simp
  · intro r hr
    have hr0 : 0 < r := lt_of_le_of_lt hρ0 hr.1
    have hlt : Real.cos β < r * C := by
      have h1 := hr.1
      rw [hρ, div_lt_iff₀ hC0] at h1
      exact h1
    exact mul_nonneg hr0.le (capF_pos hA hβ hlt (by nlinarith [hr.2])).le

theorem cap_ray_zero {τ : ℝ} (h1 : β ≤ τ) (h2 : τ ≤ 3 * Real.pi / 2) :
    ∫⁻ r in Ioo (0 : ℝ) 1, ENNReal.ofReal (r * capW A β (r * Real.cos τ)) = 0 := by
  have hb := cap_cos hA hβ
  have hle := cap_le hA hβ
  have hpi := Real.pi_pos
  have hC : Real.cos τ ≤ Real.cos β := by
    rcases le_total τ Real.pi with h | h
    · exact Real.cos_le_cos_of_nonneg_of_le_pi (cap_pos hA hβ).le h h1
    · refine le_trans ?_ hb
      exact Real.cos_nonpos_of_pi_div_two_le_of_le (by linarith) (by linarith)
  have e : ∀ r ∈ Ioo (0 : ℝ) 1, ENNReal.ofReal (r * capW A β (r * Real.cos τ)) = 0 := by
    intro r hr
    unfold capW
    rw [if_neg (not_lt.2 ?_)]
    · simp
    · rcases le_total 0 (Real.cos τ) with h | h
      · nlinarith [hr.1, hr.2]
      · nlinarith [hr.1, hr.2]
  rw [setLIntegral_congr_fun measurableSet_Ioo e]
  simp

end
end
end PyKrige
