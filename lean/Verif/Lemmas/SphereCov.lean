import Mathlib.Analysis.Calculus.Deriv.Abs
import Verif.Lemmas.SphereCaps

/-!
The covariance of two points of the sphere, computed.
-/

set_option linter.unusedSectionVars false

namespace PyKrige
noncomputable section
open Spec MeasureTheory Set Metric
open scoped RealInnerProductSpace ENNReal

theorem capW_measurable (A β : ℝ) : Measurable (capW A β) := by
  unfold capW capF
  refine Measurable.ite (measurableSet_lt measurable_const measurable_id) ?_ measurable_const
  have := Real.continuous_arccos.measurable
  fun_prop

/-- The density at a point of space. -/
def capD (p : E3) : ℝ≥0∞ := ENNReal.ofReal (1 / √(1 - ‖p‖ ^ 2))

theorem capD_measurable : Measurable capD := by unfold capD; fun_prop

theorem capD_zero {p : E3} (h : 1 ≤ ‖p‖) : capD p = 0 := by
  unfold capD
  rw [Real.sqrt_eq_zero_of_nonpos (by nlinarith)]
  simp

/-- The covariance. -/
def capK (A β : ℝ) (x y : E3) : ℝ≥0∞ := ∫⁻ p : E3, capD p * ENNReal.ofReal (min (capW A β ⟪p, x⟫) (capW A β ⟪p, y⟫))

theorem capK_map (A β : ℝ) (f : E3 ≃ₗᵢ[ℝ] E3) (x y : E3) : capK A β (f x) (f y) = capK A β x y := by
  unfold capK
  rw [← f.measurePreserving.lintegral_comp_emb f.toHomeomorph.measurableEmbedding]
  refine lintegral_congr fun p => ?_
  simp only [capD, LinearIsometryEquiv.norm_map, LinearIsometryEquiv.inner_map_map]

/-- It depends on the angle alone. -/
theorem capK_congr (A β : ℝ) {x y x' y' : E3} (hx : ‖x‖ = 1) (hy : ‖y‖ = 1) (hx' : ‖x'‖ = 1) (hy' : ‖y'‖ = 1)
    (h : ⟪x, y⟫ = ⟪x', y'⟫) : capK A β x y = capK A β x' y' := by
  let f := (ℝ ∙ (x - x'))ᗮ.reflection
  have hf : f x = x' := Submodule.reflection_sub (by rw [hx, hx'])
  let g := (ℝ ∙ (f y - y'))ᗮ.reflection
  have hg : g (f y) = y' := Submodule.reflection_sub (by rw [LinearIsometryEquiv.norm_map, hy, hy'])
  have hg' : g x' = x' := by
    refine Submodule.reflection_mem_subspace_eq_self ?_
    rw [Submodule.mem_orthogonal_singleton_iff_inner_left, inner_sub_right, ← hf, LinearIsometryEquiv.inner_map_map, h, hf, sub_self]
  rw [← capK_map A β f x y, ← capK_map A β g, hf, hg, hg']

/-- The two points. -/
def capX (h : ℝ) : E3 := WithLp.toLp 2 (0, WithLp.toLp 2 ![Real.cos h, Real.sin h])

theorem capX_norm (h : ℝ) : ‖capX h‖ = 1 := by
  apply (sq_eq_sq₀ (norm_nonneg _) zero_le_one).1
  rw [WithLp.prod_norm_sq_eq_of_L2]
  simp [capX, EuclideanSpace.norm_sq_eq, Fin.sum_univ_two]

theorem capX_inner (h : ℝ) : ⟪capX h, capX (-h)⟫ = Real.cos (2 * h) := by
  rw [WithLp.prod_inner_apply]
  simp [capX, PiLp.inner_apply, Fin.sum_univ_two, Real.cos_two_mul]
  have := Real.sin_sq_add_cos_sq h
  nlinarith

/-- The plane. -/
theorem capK_plane (A β h : ℝ) : capK A β (capX h) (capX (-h)) =
    ENNReal.ofReal Real.pi * ∫⁻ q : EuclideanSpace ℝ (Fin 2), (if ‖q‖ < 1 then 1 else 0) *
      ENNReal.ofReal (min (capW A β (q 0 * Real.cos h + q 1 * Real.sin h)) (capW A β (q 0 * Real.cos h - q 1 * Real.sin h))) := by
  unfold capK
  have hm := WithLp.volume_preserving_toLp ℝ (EuclideanSpace ℝ (Fin 2))
  have hW := capW_measurable A β
  have hD := capD_measurable
  have hmeas : Measurable fun p : E3 => capD p * ENNReal.ofReal (min (capW A β ⟪p, capX h⟫) (capW A β ⟪p, capX (-h)⟫)) := by
    fun_prop
  have hmeas' : Measurable fun a : ℝ × EuclideanSpace ℝ (Fin 2) => capD (WithLp.toLp 2 a) *
      ENNReal.ofReal (min (capW A β ⟪(WithLp.toLp 2 a : E3), capX h⟫) (capW A β ⟪(WithLp.toLp 2 a : E3), capX (-h)⟫)) :=
    hmeas.comp hm.measurable
  rw [← hm.lintegral_comp hmeas, Measure.volume_eq_prod, lintegral_prod_symm' _ hmeas', ← lintegral_const_mul _ (by
      refine Measurable.mul (Measurable.ite (measurableSet_lt measurable_norm measurable_const) measurable_const measurable_const) ?_
      fun_prop)]
  refine lintegral_congr fun q => ?_
  have e1 : ∀ s h, ⟪(WithLp.toLp 2 (s, q) : E3), capX h⟫ = q 0 * Real.cos h + q 1 * Real.sin h := fun s h => by
    rw [WithLp.prod_inner_apply]
    simp [capX, PiLp.inner_apply, Fin.sum_univ_two]
    ring
  simp only [e1, Real.cos_neg, Real.sin_neg, mul_neg, ← sub_eq_add_neg]
  have e2 : ∀ s, capD (WithLp.toLp 2 (s, q) : E3) = ENNReal.ofReal (1 / √(1 - (s ^ 2 + ‖q‖ ^ 2))) := fun s => by
    unfold capD
    rw [WithLp.prod_norm_sq_eq_of_L2]
    simp
  simp only [e2]
  rw [lintegral_mul_const _ (by fun_prop)]
  by_cases hq : ‖q‖ < 1
  · rw [if_pos hq, lintegral_shadow (by nlinarith [norm_nonneg q]), one_mul]
  · rw [if_neg hq, zero_mul, mul_zero]
    have : ∀ s : ℝ, ENNReal.ofReal (1 / √(1 - (s ^ 2 + ‖q‖ ^ 2))) = 0 := fun s => by
      rw [Real.sqrt_eq_zero_of_nonpos (by nlinarith [sq_nonneg s, not_lt.1 hq])]
      simp
    simp only [this]
    rw [lintegral_zero, zero_mul]

/-- One ray of the plane. -/
def capRay (A β τ : ℝ) : ℝ≥0∞ := ∫⁻ r in Ioo (0 : ℝ) 1, ENNReal.ofReal (r * capW A β (r * Real.cos τ))

/-- Polar coordinates. -/
theorem plane_polar {F : ℝ × ℝ → ℝ≥0∞} (hF : Measurable F) :
    ∫⁻ q : EuclideanSpace ℝ (Fin 2), (if ‖q‖ < 1 then 1 else 0) * F (q 0, q 1) =
      ∫⁻ φ in Ioo (-Real.pi) Real.pi, ∫⁻ r in Ioo (0 : ℝ) 1, ENNReal.ofReal r * F (r * Real.cos φ, r * Real.sin φ) := by
  have h1 := (volume_preserving_finTwoArrow ℝ).comp (EuclideanSpace.volume_preserving_symm_measurableEquiv_toLp (Fin 2))
  have hG : Measurable fun p : ℝ × ℝ => (if p.1 ^ 2 + p.2 ^ 2 < 1 then 1 else 0) * F p :=
    (Measurable.ite (measurableSet_lt (by fun_prop) measurable_const) measurable_const measurable_const).mul hF
  have e1 : ∫⁻ q : EuclideanSpace ℝ (Fin 2), (if ‖q‖ < 1 then 1 else 0) * F (q 0, q 1) =
      ∫⁻ p : ℝ × ℝ, (if p.1 ^ 2 + p.2 ^ 2 < 1 then 1 else 0) * F p := by
    rw [← h1.lintegral_comp hG]
    refine lintegral_congr fun q => ?_
    have e : ‖q‖ < 1 ↔ q 0 ^ 2 + q 1 ^ 2 < 1 := by
      rw [← sq_lt_sq₀ (norm_nonneg _) zero_le_one, EuclideanSpace.norm_sq_eq, Fin.sum_univ_two]
      simp
    simp only [e]
    rfl
  rw [e1, ← lintegral_comp_polarCoord_symm]
  have e2 : ∀ p ∈ polarCoord.target, ENNReal.ofReal p.1 • ((if (polarCoord.symm p).1 ^ 2 + (polarCoord.symm p).2 ^ 2 < 1 then 1 else 0) *
      F (polarCoord.symm p)) = (Ioo (0 : ℝ) 1 ×ˢ Ioo (-Real.pi) Real.pi).indicator
        (fun p => ENNReal.ofReal p.1 * F (p.1 * Real.cos p.2, p.1 * Real.sin p.2)) p := by
    intro p hp
    rw [polarCoord_target] at hp
    have hp1 : 0 < p.1 := hp.1
    have e : (p.1 * Real.cos p.2) ^ 2 + (p.1 * Real.sin p.2) ^ 2 < 1 ↔ p.1 < 1 := by
      rw [show (p.1 * Real.cos p.2) ^ 2 + (p.1 * Real.sin p.2) ^ 2 = p.1 ^ 2 * (Real.sin p.2 ^ 2 + Real.cos p.2 ^ 2) by ring,
        Real.sin_sq_add_cos_sq, mul_one, ← sq_lt_sq₀ hp1.le zero_le_one, one_pow]
    simp only [polarCoord_symm_apply, e, smul_eq_mul]
    by_cases h : p.1 < 1
    · rw [if_pos h, one_mul, indicator_of_mem]; exact ⟨⟨hp1, h⟩, hp.2⟩
    · rw [if_neg h, zero_mul, mul_zero, indicator_of_notMem]; exact fun hm => h hm.1.2
  have hms : MeasurableSet (Ioo (0 : ℝ) 1 ×ˢ Ioo (-Real.pi) Real.pi) := measurableSet_Ioo.prod measurableSet_Ioo
  have hg : Measurable fun p : ℝ × ℝ => ENNReal.ofReal p.1 * F (p.1 * Real.cos p.2, p.1 * Real.sin p.2) := by
    refine Measurable.mul (by fun_prop) (hF.comp (by fun_prop))
  rw [setLIntegral_congr_fun polarCoord.open_target.measurableSet e2, setLIntegral_indicator hms, inter_eq_left.2 ?_,
    Measure.volume_eq_prod, ← Measure.prod_restrict, lintegral_prod_symm' _ hg]
  rw [polarCoord_target]
  exact prod_mono (fun r hr => hr.1) subset_rfl

theorem hasDerivAt_mul_abs (x : ℝ) : HasDerivAt (fun x : ℝ => x * abs x) (2 * abs x) x := by
  rcases lt_trichotomy x 0 with h | rfl | h
  · have := (hasDerivAt_id x).mul (hasDerivAt_abs h.ne)
    refine this.congr_deriv ?_
    rw [abs_of_neg h, sign_neg h]; simp; ring
  · rw [hasDerivAt_iff_tendsto_slope_zero]
    have h1 : Filter.Tendsto (fun t : ℝ => abs t) (nhdsWithin 0 {0}ᶜ) (nhds (2 * abs (0 : ℝ))) := by
      have : Filter.Tendsto (fun t : ℝ => abs t) (nhds 0) (nhds (abs 0)) := continuous_abs.continuousAt
      rw [abs_zero, mul_zero]
      rw [abs_zero] at this
      exact this.mono_left nhdsWithin_le_nhds
    refine h1.congr' ?_
    filter_upwards [self_mem_nhdsWithin] with t ht
    have : t ≠ 0 := ht
    simp [smul_eq_mul]
    field_simp
  · have := (hasDerivAt_id x).mul (hasDerivAt_abs h.ne')
    refine this.congr_deriv ?_
    rw [abs_of_pos h, sign_pos h]; simp; ring

section
variable {A β : ℝ} (hA : 0 < A) (hβ : β = min A (Real.pi / 2))
include hA hβ

/-- Both points on one ray. -/
theorem cap_both {h φ : ℝ} (h0 : 0 ≤ h) (h1 : h ≤ Real.pi / 2) (hφ : abs φ < Real.pi) :
    ∫⁻ r in Ioo (0 : ℝ) 1, ENNReal.ofReal r * ENNReal.ofReal
      (min (capW A β (r * Real.cos φ * Real.cos h + r * Real.sin φ * Real.sin h))
        (capW A β (r * Real.cos φ * Real.cos h - r * Real.sin φ * Real.sin h))) = capRay A β (abs φ + h) := by
  unfold capRay
  refine setLIntegral_congr_fun measurableSet_Ioo fun r hr => ?_
  have hs : 0 ≤ Real.sin h := Real.sin_nonneg_of_nonneg_of_le_pi h0 (by linarith [Real.pi_pos])
  have e1 : r * Real.cos φ * Real.cos h + r * Real.sin φ * Real.sin h = r * Real.cos (φ - h) := by rw [Real.cos_sub]; ring
  have e2 : r * Real.cos φ * Real.cos h - r * Real.sin φ * Real.sin h = r * Real.cos (φ + h) := by rw [Real.cos_add]; ring
  rw [← ENNReal.ofReal_mul hr.1.le, e1, e2]
  have lt1 : ∀ t, r * Real.cos t < 1 := fun t => by nlinarith [hr.1, hr.2, Real.cos_le_one t]
  congr 2
  rcases le_total 0 φ with hp | hp
  · rw [abs_of_nonneg hp] at hφ ⊢
    refine min_eq_right (capW_mono hA hβ ?_ (lt1 _))
    have : 0 ≤ Real.sin φ := Real.sin_nonneg_of_nonneg_of_le_pi hp hφ.le
    rw [Real.cos_add, Real.cos_sub]
    have := mul_nonneg this hs
    nlinarith [hr.1]
  · rw [abs_of_nonpos hp] at hφ ⊢
    rw [show -φ + h = -(φ - h) by ring, Real.cos_neg]
    refine min_eq_left (capW_mono hA hβ ?_ (lt1 _))
    have : Real.sin φ ≤ 0 := Real.sin_nonpos_of_nonpos_of_neg_pi_le hp (by linarith)
    rw [Real.cos_add, Real.cos_sub]
    have := mul_nonpos_of_nonpos_of_nonneg this hs
    nlinarith [hr.1]

theorem capRay_eq {τ : ℝ} (h0 : 0 ≤ τ) (h1 : τ ≤ 3 * Real.pi / 2) :
    capRay A β τ = if τ < β then ENNReal.ofReal ((A ^ 2 - τ ^ 2) / 2) else 0 := by
  split_ifs with h
  · exact cap_ray hA hβ h0 h
  · exact cap_ray_zero hA hβ (not_lt.1 h) h1

/-- The covariance of points an angle `2 h` apart. -/
theorem capK_axis {h : ℝ} (h0 : 0 ≤ h) (h1 : h ≤ Real.pi / 2) :
    capK A β (capX h) (capX (-h)) =
      ENNReal.ofReal (if h < β then Real.pi * (A ^ 2 * (β - h) - (β ^ 3 - h ^ 3) / 3) else 0) := by
  have hW := capW_measurable A β
  have hpi := Real.pi_pos
  have hF : Measurable fun p : ℝ × ℝ => ENNReal.ofReal
      (min (capW A β (p.1 * Real.cos h + p.2 * Real.sin h)) (capW A β (p.1 * Real.cos h - p.2 * Real.sin h))) := by
    fun_prop
  have hpol := plane_polar hF
  rw [capK_plane]
  simp only at hpol
  rw [hpol]
  have e1 : ∀ φ ∈ Ioo (-Real.pi) Real.pi, ∫⁻ r in Ioo (0 : ℝ) 1, ENNReal.ofReal r * ENNReal.ofReal
      (min (capW A β (r * Real.cos φ * Real.cos h + r * Real.sin φ * Real.sin h))
        (capW A β (r * Real.cos φ * Real.cos h - r * Real.sin φ * Real.sin h))) =
      if abs φ + h < β then ENNReal.ofReal ((A ^ 2 - (abs φ + h) ^ 2) / 2) else 0 := fun φ hφ => by
    have hφ' : abs φ < Real.pi := abs_lt.2 hφ
    rw [cap_both hA hβ h0 h1 hφ', capRay_eq hA hβ (by positivity) (by linarith)]
  rw [setLIntegral_congr_fun measurableSet_Ioo e1]
  by_cases hh : h < β
  · rw [if_pos hh]
    have e2 : ∀ φ ∈ Ioo (-Real.pi) Real.pi, (if abs φ + h < β then ENNReal.ofReal ((A ^ 2 - (abs φ + h) ^ 2) / 2) else 0) =
        (Ioo (-(β - h)) (β - h)).indicator (fun φ => ENNReal.ofReal ((A ^ 2 - (abs φ + h) ^ 2) / 2)) φ := fun φ _ => by
      have : abs φ + h < β ↔ φ ∈ Ioo (-(β - h)) (β - h) := by
        rw [mem_Ioo, ← abs_lt]; constructor <;> intro h <;> linarith
      by_cases hc : abs φ + h < β
      · rw [if_pos hc, indicator_of_mem (this.1 hc)]
      · rw [if_neg hc, indicator_of_notMem fun hm => hc (this.2 hm)]
    have hle := cap_le hA hβ
    have hβA : β ≤ A := by rw [hβ]; exact min_le_left _ _
    have hpart : ∀ t : ℝ, abs t < β - h → 0 ≤ (A ^ 2 - (abs t + h) ^ 2) / 2 := fun t ht => by
      have := abs_nonneg t
      nlinarith
    rw [setLIntegral_congr_fun measurableSet_Ioo e2, setLIntegral_indicator measurableSet_Ioo,
      inter_eq_left.2 (Ioo_subset_Ioo (by linarith) (by linarith)),
      lintegral_deriv (f := fun φ => A ^ 2 * φ / 2 - (φ ^ 3 / 3 + h * (φ * abs φ) + h ^ 2 * φ) / 2) (by linarith) (by fun_prop)]
    · rw [← ENNReal.ofReal_mul hpi.le, abs_neg, abs_of_nonneg (by linarith : 0 ≤ β - h)]
      congr 1
      ring
    · intro φ _
      have hab := hasDerivAt_mul_abs φ
      have := (((hasDerivAt_id φ).const_mul (A ^ 2)).div_const 2).sub
        (((((hasDerivAt_pow 3 φ).div_const 3).add (hab.const_mul h)).add ((hasDerivAt_id φ).const_mul (h ^ 2))).div_const 2)
      refine this.congr_deriv ?_
      have hs := sq_abs φ
      push_cast
      nlinarith
    · intro φ hφ
      exact hpart φ (abs_lt.2 hφ)
  · rw [if_neg hh]
    have : ∀ φ : ℝ, ¬ (abs φ + h < β) := fun φ hc => hh (by linarith [abs_nonneg φ])
    simp [this]

/-- The covariance of two points of the sphere. -/
theorem capK_eq {x y : E3} (hx : ‖x‖ = 1) (hy : ‖y‖ = 1) :
    capK A β x y = ENNReal.ofReal (if Real.arccos ⟪x, y⟫ / 2 < β then
      Real.pi * (A ^ 2 * (β - Real.arccos ⟪x, y⟫ / 2) - (β ^ 3 - (Real.arccos ⟪x, y⟫ / 2) ^ 3) / 3) else 0) := by
  have h0 := Real.arccos_nonneg ⟪x, y⟫
  have h1 := Real.arccos_le_pi ⟪x, y⟫
  rw [← capK_axis hA hβ (by linarith) (by linarith)]
  refine capK_congr A β hx hy (capX_norm _) (capX_norm _) ?_
  have := abs_le.1 (abs_real_inner_le_norm x y)
  rw [hx, hy] at this
  rw [capX_inner, mul_div_cancel₀ _ (two_ne_zero), Real.cos_arccos (by linarith) (by linarith)]

end

/-! ### Overlaps of sets -/

section
variable {ι Ω : Type} [Fintype ι] [MeasurableSpace Ω]

/-- The quadratic form of the overlaps. -/
theorem quad_sets {ν : Measure Ω} {S : ι → Set Ω} (hS : ∀ i, MeasurableSet (S i)) (hfin : ∀ i, ν (S i) ≠ ⊤) (c : ι → ℝ) :
    Integrable (fun z => (∑ i, c i * (S i).indicator 1 z) ^ 2) ν ∧
      quad (fun i j => ν.real (S i ∩ S j)) c = ∫ z, (∑ i, c i * (S i).indicator 1 z) ^ 2 ∂ν := by
  have e : ∀ z, (∑ i, c i * (S i).indicator (1 : Ω → ℝ) z) ^ 2 = ∑ i, ∑ j, c i * c j *
      (S i ∩ S j).indicator (1 : Ω → ℝ) z := fun z => by
    rw [sq, Finset.sum_mul_sum]
    refine Finset.sum_congr rfl fun i _ => Finset.sum_congr rfl fun j _ => ?_
    rw [inter_indicator_one]
    simp only [Pi.mul_apply]
    ring
  have hms : ∀ i j, MeasurableSet (S i ∩ S j) := fun i j => (hS i).inter (hS j)
  have hfin : ∀ i j, ν (S i ∩ S j) ≠ ⊤ := fun i j => ((measure_mono inter_subset_left).trans_lt (hfin i).lt_top).ne
  have hint : ∀ i j, Integrable (fun z => c i * c j * (S i ∩ S j).indicator (1 : Ω → ℝ) z) ν := fun i j =>
    ((integrable_indicator_iff (hms i j)).2 (integrableOn_const (hfin i j))).const_mul _
  refine ⟨?_, ?_⟩
  · simp only [e]
    exact integrable_finsetSum _ fun i _ => integrable_finsetSum _ fun j _ => hint i j
  · simp only [e]
    rw [integral_finsetSum _ fun i _ => integrable_finsetSum _ fun j _ => hint i j]
    refine Finset.sum_congr rfl fun i _ => ?_
    rw [integral_finsetSum _ fun j _ => hint i j]
    refine Finset.sum_congr rfl fun j _ => ?_
    rw [integral_const_mul, integral_indicator_one (hms i j)]

theorem psd_sets {ν : Measure Ω} {S : ι → Set Ω} (hS : ∀ i, MeasurableSet (S i)) (hfin : ∀ i, ν (S i) ≠ ⊤) :
    PSD fun i j => ν.real (S i ∩ S j) := by
  rw [psd_iff]
  refine ⟨fun i j => by rw [inter_comm], fun c => ?_⟩
  rw [(quad_sets hS hfin c).2]
  exact integral_nonneg fun z => sq_nonneg _

/-- Each set has a part of its own. -/
theorem sets_pos {ν : Measure Ω} {S : ι → Set Ω} (hS : ∀ i, MeasurableSet (S i)) (hfin : ∀ i, ν (S i) ≠ ⊤)
    (hown : ∀ m, ∃ T ⊆ S m, 0 < ν T ∧ ∀ j, j ≠ m → Disjoint T (S j)) {c : ι → ℝ} (hc : c ≠ 0) :
    0 < quad (fun i j => ν.real (S i ∩ S j)) c := by
  classical
  obtain ⟨hI, hq⟩ := quad_sets hS hfin c
  rw [hq, integral_pos_iff_support_of_nonneg (fun z => sq_nonneg _) hI]
  obtain ⟨m, hm⟩ := Function.ne_iff.1 hc
  obtain ⟨T, hT, hpos, hd⟩ := hown m
  refine lt_of_lt_of_le hpos (measure_mono fun z hz => ?_)
  have : ∑ i, c i * (S i).indicator (1 : Ω → ℝ) z = c m := by
    rw [Finset.sum_eq_single m]
    · rw [indicator_of_mem (hT hz)]; simp
    · intro j _ hj
      rw [indicator_of_notMem fun h => Set.disjoint_left.1 (hd j hj) hz h, mul_zero]
    · simp
  rw [Function.mem_support, this]
  exact pow_ne_zero 2 hm

end

/-! ### The covariance as an overlap -/

/-- Points of space with a height. -/
def capNu : Measure (E3 × ℝ) := (volume.withDensity capD).prod volume

/-- Below the profile of `x`. -/
def capS (A β : ℝ) (x : E3) : Set (E3 × ℝ) := {z | 0 < z.2 ∧ z.2 < capW A β ⟪z.1, x⟫}

theorem capS_measurable (A β : ℝ) (x : E3) : MeasurableSet (capS A β x) := by
  have hW := capW_measurable A β
  exact (measurableSet_lt measurable_const measurable_snd).inter (measurableSet_lt measurable_snd (by fun_prop))

theorem capNu_inter (A β : ℝ) (x y : E3) : capNu (capS A β x ∩ capS A β y) = capK A β x y := by
  have hW := capW_measurable A β
  have hm := (capS_measurable A β x).inter (capS_measurable A β y)
  unfold capNu capK
  rw [Measure.prod_apply hm, lintegral_withDensity_eq_lintegral_mul _ capD_measurable (measurable_measure_prodMk_left hm)]
  refine lintegral_congr fun p => ?_
  rw [Pi.mul_apply]
  congr 1
  have : Prod.mk p ⁻¹' (capS A β x ∩ capS A β y) = Ioo 0 (min (capW A β ⟪p, x⟫) (capW A β ⟪p, y⟫)) := by
    ext t
    simp only [capS, mem_preimage, mem_inter_iff, mem_ofPred_eq, mem_Ioo, lt_min_iff]
    tauto
  rw [this, Real.volume_Ioo, sub_zero]

section
variable {ι : Type} [Fintype ι] {A β : ℝ} (hA : 0 < A) (hβ : β = min A (Real.pi / 2))
include hA hβ

theorem capS_finite {x : E3} (hx : ‖x‖ = 1) : capNu (capS A β x) ≠ ⊤ := by
  have := capNu_inter A β x x
  rw [inter_self, capK_eq hA hβ hx hx] at this
  rw [this]
  exact ENNReal.ofReal_ne_top

theorem capK_psd {x : ι → E3} (hx : ∀ i, ‖x i‖ = 1) : PSD fun i j => (capK A β (x i) (x j)).toReal := by
  have := psd_sets (fun i => capS_measurable A β (x i)) fun i => capS_finite hA hβ (hx i)
  simpa only [Measure.real, capNu_inter] using this

/-- A part of its own. -/
theorem capS_own {x : ι → E3} (hx : ∀ i, ‖x i‖ = 1) (hinj : Function.Injective x) (m : ι) :
    ∃ T ⊆ capS A β (x m), 0 < capNu T ∧ ∀ j, j ≠ m → Disjoint T (capS A β (x j)) := by
  classical
  have hcos : Real.cos β < 1 := by
    rw [← Real.cos_zero]
    exact Real.cos_lt_cos_of_nonneg_of_le_pi le_rfl (by linarith [cap_le hA hβ, Real.pi_pos]) (cap_pos hA hβ)
  have hcos0 := cap_cos hA hβ
  obtain ⟨u, hu1, hu⟩ : ∃ u < 1, Real.cos β < u ∧ ∀ j, j ≠ m → ⟪x m, x j⟫ < u := by
    have hlt : ∀ j, j ≠ m → ⟪x m, x j⟫ < 1 := fun j hj => by
      refine lt_of_le_of_ne ?_ fun e => hj (hinj ?_)
      · have := (abs_le.1 (abs_real_inner_le_norm (x m) (x j))).2; rwa [hx, hx, one_mul] at this
      · exact ((inner_eq_one_iff_of_norm_eq_one (hx m) (hx j)).1 e).symm
    have hev : ∀ᶠ u in nhdsWithin (1 : ℝ) (Iio 1), Real.cos β < u ∧ ∀ j, j ≠ m → ⟪x m, x j⟫ < u := by
      refine Filter.Eventually.filter_mono nhdsWithin_le_nhds ((eventually_gt_nhds hcos).and ?_)
      rw [Filter.eventually_all]
      intro j
      by_cases hj : j = m
      · exact Filter.Eventually.of_forall fun t h => absurd hj h
      · exact (eventually_gt_nhds (hlt j hj)).mono fun t ht _ => ht
    obtain ⟨u, h1, h2⟩ := (hev.and self_mem_nhdsWithin).exists
    exact ⟨u, h2, h1⟩
  obtain ⟨v, huv, hv1⟩ := exists_between hu1
  have hu0 : 0 < u := lt_of_le_of_lt hcos0 hu.1
  let U : Set E3 := {p | ‖p‖ < 1 ∧ v < ⟪p, x m⟫ ∧ ∀ j, j ≠ m → ⟪p, x j⟫ < u}
  have hUo : IsOpen U := by
    have h1 : IsOpen {p : E3 | ‖p‖ < 1} := isOpen_lt (by fun_prop) continuous_const
    have h2 : IsOpen {p : E3 | v < ⟪p, x m⟫} := isOpen_lt continuous_const (by fun_prop)
    refine h1.inter (h2.inter ?_)
    have : {p : E3 | ∀ j, j ≠ m → ⟪p, x j⟫ < u} = ⋂ j, {p : E3 | j ≠ m → ⟪p, x j⟫ < u} := by
      ext p; simp
    change IsOpen {p : E3 | ∀ j, j ≠ m → ⟪p, x j⟫ < u}
    rw [this]
    refine isOpen_iInter_of_finite fun j => ?_
    by_cases hj : j = m
    · simp [hj]
    · simp only [ne_eq, hj, not_false_eq_true, forall_const]
      exact isOpen_lt (by fun_prop) continuous_const
  have hlt1 : ∀ {p : E3} (j : ι), ‖p‖ < 1 → ⟪p, x j⟫ < 1 := fun {p} j hp =>
    lt_of_le_of_lt (real_inner_le_norm _ _) (by rw [hx, mul_one]; exact hp)
  have hUne : U.Nonempty := by
    obtain ⟨w, hvw, hw1⟩ := exists_between hv1
    have hw0 : 0 < w := by linarith
    refine ⟨w • x m, ?_, ?_, fun j hj => ?_⟩
    · rw [norm_smul, hx, mul_one, Real.norm_eq_abs, abs_of_pos hw0]; exact hw1
    · rw [real_inner_smul_left, real_inner_self_eq_norm_sq, hx]; linarith
    · rw [real_inner_smul_left]
      rcases le_total 0 ⟪x m, x j⟫ with h | h
      · nlinarith [hu.2 j hj]
      · nlinarith
  have hUpos : 0 < (volume.withDensity capD) U := by
    rw [withDensity_apply _ hUo.measurableSet, setLIntegral_pos_iff capD_measurable]
    refine lt_of_lt_of_le (hUo.measure_pos volume hUne) (measure_mono fun p hp => ⟨?_, hp⟩)
    rw [Function.mem_support]
    unfold capD
    have : 0 < √(1 - ‖p‖ ^ 2) := Real.sqrt_pos.2 (by nlinarith [hp.1, norm_nonneg p])
    exact (ENNReal.ofReal_pos.2 (by positivity)).ne'
  have hF : capF A u < capF A v := capF_strictMono A ⟨by linarith, by linarith⟩ ⟨by linarith, hv1⟩ huv
  have hF0 : 0 < capF A u := capF_pos hA hβ hu.1 hu1
  have hWu : capW A β u = capF A u := if_pos hu.1
  have hWv : capW A β v = capF A v := if_pos (hu.1.trans huv)
  refine ⟨U ×ˢ Ioo (capF A u) (capF A v), ?_, ?_, ?_⟩
  · rintro ⟨p, t⟩ ⟨hp, ht⟩
    refine ⟨hF0.trans ht.1, lt_of_lt_of_le ht.2 ?_⟩
    have := capW_mono hA hβ hp.2.1.le (hlt1 m hp.1)
    rwa [hWv] at this
  · unfold capNu
    rw [Measure.prod_prod, Real.volume_Ioo]
    exact ENNReal.mul_pos hUpos.ne' (ENNReal.ofReal_pos.2 (by linarith)).ne'
  · intro j hj
    rw [Set.disjoint_left]
    rintro ⟨p, t⟩ ⟨hp, ht⟩ ⟨_, h2⟩
    have := capW_mono hA hβ (hp.2.2 j hj).le hu1
    rw [hWu] at this
    exact absurd ht.1 (not_lt.2 (h2.le.trans this))

theorem capK_pos {x : ι → E3} (hx : ∀ i, ‖x i‖ = 1) (hinj : Function.Injective x) {c : ι → ℝ} (hc : c ≠ 0) :
    0 < quad (fun i j => (capK A β (x i) (x j)).toReal) c := by
  have := sets_pos (fun i => capS_measurable A β (x i)) (fun i => capS_finite hA hβ (hx i)) (capS_own hA hβ hx hinj) hc
  simpa only [Measure.real, capNu_inter] using this

end

end
end PyKrige
