import Verif.Lemmas.Answer
import Verif.Lemmas.Validity

/-!
Consequences of conditional negative definiteness for the kriging equations.
-/

set_option linter.unusedSectionVars false

namespace PyKrige
noncomputable section
open Matrix Spec

variable {ι κ : Type} [Fintype ι] [Fintype κ]

/-- Fubini for the drift sums. -/
theorem sum_drift (F : κ → ι → ℝ) (u : ι → ℝ) (ν : κ → ℝ) :
    ∑ i, u i * ∑ l, F l i * ν l = ∑ l, ν l * ∑ i, F l i * u i := by
  simp only [Finset.mul_sum]
  rw [Finset.sum_comm]
  exact Finset.sum_congr rfl fun l _ => Finset.sum_congr rfl fun i _ => by ring

theorem sum_G (G : ι → ι → ℝ) (u w : ι → ℝ) : ∑ i, u i * ∑ j, G i j * w j = ∑ i, ∑ j, u i * w j * G i j := by
  refine Finset.sum_congr rfl fun i _ => ?_
  rw [Finset.mul_sum]
  exact Finset.sum_congr rfl fun j _ => by ring

/-- Any weights against the stationarity equations. -/
theorem Spec.KrigingEqs.against {G : ι → ι → ℝ} {F : κ → ι → ℝ} {g : ι → ℝ} {f : κ → ℝ} {c : ℝ} {w : ι → ℝ}
    {ν : κ → ℝ} {μ : ℝ} (h : KrigingEqs G F g f c w ν μ) (u : ι → ℝ) :
    ∑ i, u i * g i = ∑ i, ∑ j, u i * w j * G i j - ∑ l, ν l * ∑ i, F l i * u i - μ * ∑ i, u i := by
  rw [← sum_G, ← sum_drift F, Finset.mul_sum, ← Finset.sum_sub_distrib, ← Finset.sum_sub_distrib]
  refine Finset.sum_congr rfl fun i _ => ?_
  rw [← h.stationary i]; ring

/-- The kriging variance is the estimation variance of the kriging weights. -/
theorem Spec.KrigingEqs.variance_eq {G : ι → ι → ℝ} {F : κ → ι → ℝ} {g : ι → ℝ} {f : κ → ℝ} {w : ι → ℝ}
    {ν : κ → ℝ} {μ : ℝ} (h : KrigingEqs G F g f 1 w ν μ) :
    krigingVariance g f w ν μ = errorVariance G g w := by
  have := h.against w
  simp only [h.drift, h.unbiased] at this
  unfold krigingVariance errorVariance
  linarith

theorem errorVariance_sub (G : ι → ι → ℝ) (hs : ∀ i j, G i j = G j i) (g u w : ι → ℝ) :
    errorVariance G g u - errorVariance G g w =
      2 * (∑ i, (u i - w i) * g i - ∑ i, ∑ j, (u i - w i) * w j * G i j) - quad G (fun i => u i - w i) := by
  have hsw : ∑ i, ∑ j, u i * w j * G i j = ∑ i, ∑ j, w i * u j * G i j := by
    rw [Finset.sum_comm]
    exact Finset.sum_congr rfl fun i _ => Finset.sum_congr rfl fun j _ => by rw [hs]; ring
  have e1 : quad G (fun i => u i - w i) = ∑ i, ∑ j, u i * u j * G i j - ∑ i, ∑ j, u i * w j * G i j -
      ∑ i, ∑ j, w i * u j * G i j + ∑ i, ∑ j, w i * w j * G i j := by
    simp only [quad, ← Finset.sum_add_distrib, ← Finset.sum_sub_distrib]
    exact Finset.sum_congr rfl fun i _ => Finset.sum_congr rfl fun j _ => by ring
  have e2 : ∑ i, ∑ j, (u i - w i) * w j * G i j = ∑ i, ∑ j, u i * w j * G i j - ∑ i, ∑ j, w i * w j * G i j := by
    simp only [← Finset.sum_sub_distrib]
    exact Finset.sum_congr rfl fun i _ => Finset.sum_congr rfl fun j _ => by ring
  have e3 : ∑ i, (u i - w i) * g i = ∑ i, u i * g i - ∑ i, w i * g i := by
    simp only [← Finset.sum_sub_distrib]
    exact Finset.sum_congr rfl fun i _ => by ring
  rw [e1, e2, e3, ← hsw]
  unfold errorVariance
  ring

/-- Best linear unbiased prediction. -/
theorem Spec.KrigingEqs.best {G : ι → ι → ℝ} (hG : CondNeg G) {F : κ → ι → ℝ} {g : ι → ℝ} {f : κ → ℝ} {w : ι → ℝ}
    {ν : κ → ℝ} {μ : ℝ} (h : KrigingEqs G F g f 1 w ν μ) {u : ι → ℝ} (hu : ∑ i, u i = 1)
    (hf : ∀ l, ∑ i, F l i * u i = f l) : errorVariance G g w ≤ errorVariance G g u := by
  have h1 : ∑ i, (u i - w i) = 0 := by rw [Finset.sum_sub_distrib, hu, h.unbiased, sub_self]
  have h2 : ∀ l, ∑ i, F l i * (u i - w i) = 0 := fun l => by
    simp only [mul_sub, Finset.sum_sub_distrib, hf, h.drift, sub_self]
  have h3 := h.against fun i => u i - w i
  simp only [h1, h2, mul_zero, Finset.sum_const_zero, sub_zero] at h3
  have h4 := errorVariance_sub G hG.symm g u w
  rw [h3, sub_self, mul_zero, zero_sub] at h4
  have h5 : quad G (fun i => u i - w i) ≤ 0 := hG.contrast _ h1
  linarith

/-- Uniqueness of the best weights. -/
theorem Spec.KrigingEqs.best_strict {G : ι → ι → ℝ} (hG : StrictCondNeg G) {F : κ → ι → ℝ} {g : ι → ℝ} {f : κ → ℝ}
    {w : ι → ℝ} {ν : κ → ℝ} {μ : ℝ} (h : KrigingEqs G F g f 1 w ν μ) {u : ι → ℝ} (hu : ∑ i, u i = 1)
    (hf : ∀ l, ∑ i, F l i * u i = f l) (hne : u ≠ w) : errorVariance G g w < errorVariance G g u := by
  have h1 : ∑ i, (u i - w i) = 0 := by rw [Finset.sum_sub_distrib, hu, h.unbiased, sub_self]
  have h2 : ∀ l, ∑ i, F l i * (u i - w i) = 0 := fun l => by
    simp only [mul_sub, Finset.sum_sub_distrib, hf, h.drift, sub_self]
  have h3 := h.against fun i => u i - w i
  simp only [h1, h2, mul_zero, Finset.sum_const_zero, sub_zero] at h3
  have h4 := errorVariance_sub G hG.symm g u w
  rw [h3, sub_self, mul_zero, zero_sub] at h4
  have h5 : quad G (fun i => u i - w i) < 0 := hG.contrast _ h1 fun h0 => hne <| by
    funext i; exact sub_eq_zero.1 (congrFun h0 i)
  linarith

theorem quad_withPoint (G : ι → ι → ℝ) (g : ι → ℝ) (w : ι → ℝ) :
    quad (withPoint G g) (fun o => o.elim (-1) w) = -errorVariance G g w := by
  simp only [quad, Fintype.sum_option, withPoint, Option.elim, Finset.sum_add_distrib, errorVariance]
  have e1 : ∑ x, -1 * w x * g x = -∑ x, w x * g x := by
    rw [← Finset.sum_neg_distrib]; exact Finset.sum_congr rfl fun i _ => by ring
  have e2 : ∑ x, w x * -1 * g x = -∑ x, w x * g x := by
    rw [← Finset.sum_neg_distrib]; exact Finset.sum_congr rfl fun i _ => by ring
  rw [e1, e2]; ring

/-- The estimation variance of any weights with sum one is non-negative. -/
theorem errorVariance_nonneg {G : ι → ι → ℝ} {g : ι → ℝ} (h : CondNeg (withPoint G g)) {w : ι → ℝ}
    (hw : ∑ i, w i = 1) : 0 ≤ errorVariance G g w := by
  have h1 : quad (withPoint G g) (fun o => o.elim (-1) w) ≤ 0 := h.contrast _ (by
    rw [Fintype.sum_option]; simp [hw])
  rw [quad_withPoint] at h1
  linarith

theorem Spec.CondNeg.of_withPoint {G : ι → ι → ℝ} {g : ι → ℝ} (h : CondNeg (withPoint G g)) : CondNeg G :=
  h.comap fun i => some i

/-- The kriging equations have a solution as soon as some weights satisfy the constraints. -/
theorem consistent [DecidableEq ι] [DecidableEq κ] {G : ι → ι → ℝ} {g : ι → ℝ} (h : CondNeg (withPoint G g))
    {F : κ → ι → ℝ} {f : κ → ℝ} {u : ι → ℝ} (hu : ∑ i, u i = 1) (hf : ∀ l, ∑ i, F l i * u i = f l) :
    ∃ w ν μ, KrigingEqs G F g f 1 w ν μ := by
  have hG := h.of_withPoint
  set A := krigMat G F with hA
  set b := krigRhs g f 1 with hb
  have hsym : Aᵀ = A := transpose_krigMat hG.symm
  set r := b - A *ᵥ (scipyPinv A *ᵥ b) with hr
  -- `A r = 0`
  have hP := scipyPinv_isPinv A
  have hAr : A *ᵥ r = 0 := by
    rw [hr, Matrix.mulVec_sub, Matrix.mulVec_mulVec, Matrix.mulVec_mulVec, ← Matrix.sub_mulVec]
    have : A * (A * scipyPinv A) = A := by
      have h1 : (A * (A * scipyPinv A))ᵀ = A * scipyPinv A * A := by
        rw [Matrix.transpose_mul, hP.ap_symm, hsym]
      have h2 := congrArg Matrix.transpose h1
      rw [Matrix.transpose_transpose, hP.apa, hsym] at h2
      exact h2
    rw [Matrix.mul_assoc, this, sub_self, Matrix.zero_mulVec]
  -- the kernel is orthogonal to the right-hand side
  have hrb : r ⬝ᵥ b = 0 := by
    have hk := hAr
    rw [← krigRhs_zero, hA, krigMat_mulVec_iff] at hk
    set w := wOf r
    set ν := nuOf r
    set μ := muOf r
    have hw0 : ∑ i, ∑ j, w i * w j * G i j = 0 := by
      have := hk.against w
      simp only [hk.drift, hk.unbiased] at this
      simpa using this.symm
    have huw : ∑ i, ∑ j, u i * w j * G i j = ∑ l, ν l * f l + μ := by
      have := hk.against u
      simp only [hf, hu, Pi.zero_apply, mul_zero, Finset.sum_const_zero, mul_one] at this
      linarith
    have hlin : ∀ t : ℝ, 0 ≤ errorVariance G g u + 2 * t * (∑ i, w i * g i - (∑ l, ν l * f l + μ)) := fun t => by
      have h1 : 0 ≤ errorVariance G g (fun i => u i + t * w i) := errorVariance_nonneg h (by
        rw [Finset.sum_add_distrib, ← Finset.mul_sum, hu, hk.unbiased]; simp)
      have h2 := errorVariance_sub G hG.symm g (fun i => u i + t * w i) u
      have e1 : ∑ i, (u i + t * w i - u i) * g i = t * ∑ i, w i * g i := by
        rw [Finset.mul_sum]; exact Finset.sum_congr rfl fun i _ => by ring
      have e2 : ∑ i, ∑ j, (u i + t * w i - u i) * u j * G i j = t * ∑ i, ∑ j, u i * w j * G i j := by
        rw [Finset.sum_comm]
        simp only [Finset.mul_sum]
        exact Finset.sum_congr rfl fun i _ => Finset.sum_congr rfl fun j _ => by rw [hG.symm]; ring
      have e3 : quad G (fun i => u i + t * w i - u i) = t ^ 2 * ∑ i, ∑ j, w i * w j * G i j := by
        simp only [quad, Finset.mul_sum]
        exact Finset.sum_congr rfl fun i _ => Finset.sum_congr rfl fun j _ => by ring
      rw [e1, e2, e3, hw0, huw] at h2
      linarith
    have hz : ∑ i, w i * g i - (∑ l, ν l * f l + μ) = 0 := by
      by_contra hne
      set q := ∑ i, w i * g i - (∑ l, ν l * f l + μ)
      have := hlin (-(errorVariance G g u + 1) / (2 * q))
      have e : 2 * (-(errorVariance G g u + 1) / (2 * q)) * q = -(errorVariance G g u + 1) := by
        field_simp
      rw [e] at this
      linarith
    rw [← pack_eta r]
    simp only [dotProduct, hb, Fintype.sum_sum_type, packX, krigRhs, Finset.univ_unique, Finset.sum_const,
      Finset.card_singleton, one_smul, mul_one]
    have e4 : ∑ x, wOf r x * -g x = -∑ i, w i * g i := by
      rw [← Finset.sum_neg_distrib]; exact Finset.sum_congr rfl fun i _ => by ring
    rw [e4]
    have : ∑ l, nuOf r l * f l = ∑ l, ν l * f l := rfl
    have : muOf r = μ := rfl
    linarith
  have hrr : r ⬝ᵥ r = 0 := by
    have h1 : r ⬝ᵥ (A *ᵥ (scipyPinv A *ᵥ b)) = 0 := by
      rw [Matrix.dotProduct_mulVec, ← Matrix.mulVec_transpose, hsym, hAr, zero_dotProduct]
    calc r ⬝ᵥ r = r ⬝ᵥ b - r ⬝ᵥ (A *ᵥ (scipyPinv A *ᵥ b)) := by rw [← dotProduct_sub]
      _ = 0 := by rw [hrb, h1, sub_zero]
  have hr0 : r = 0 := dotProduct_self_eq_zero.1 hrr
  have hsol : A *ᵥ (scipyPinv A *ᵥ b) = b := (sub_eq_zero.1 hr0).symm
  exact ⟨_, _, _, (krigMat_mulVec_iff G F g f 1 _).1 hsol⟩

/-- Strict validity makes the ordinary kriging system regular. -/
theorem Spec.StrictCondNeg.regular [Nonempty ι] {G : ι → ι → ℝ} (h : StrictCondNeg G) {F : κ → ι → ℝ}
    (hF : ∀ (a : κ → ℝ) (b : ℝ), (∀ i, ∑ l, F l i * a l + b = 0) → a = 0 ∧ b = 0) : Regular G F := by
  intro w ν μ he
  have h1 := he.against w
  simp only [he.drift, he.unbiased, Pi.zero_apply, mul_zero, Finset.sum_const_zero, sub_zero] at h1
  have hw : w = 0 := by
    by_contra hne
    have := h.contrast w he.unbiased hne
    linarith
  refine ⟨hw, hF ν μ fun i => ?_⟩
  have := he.stationary i
  simp only [hw, Pi.zero_apply, mul_zero, Finset.sum_const_zero] at this
  linarith

theorem Spec.StrictCondNeg.regular_ok [Nonempty ι] {G : ι → ι → ℝ} (h : StrictCondNeg G) {F : Fin 0 → ι → ℝ} :
    Regular G F := h.regular fun a b hi => by
  refine ⟨funext fun l => l.elim0, ?_⟩
  simpa using hi (Classical.arbitrary ι)

end
end PyKrige
