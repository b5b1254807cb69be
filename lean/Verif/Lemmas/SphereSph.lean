import Verif.Lemmas.SphereCov
import Verif.Lemmas.Sphere
import Verif.Lemmas.Validity

/-!
The spherical model is a variogram of the great-circle distance.
-/

set_option linter.unusedSectionVars false

namespace PyKrige
noncomputable section
open Spec
open scoped RealInnerProductSpace

/-- The sphere in line times plane. -/
def toE3 (v : EuclideanSpace ℝ (Fin 3)) : E3 := WithLp.toLp 2 (v 0, WithLp.toLp 2 ![v 1, v 2])

theorem toE3_inner (u v : EuclideanSpace ℝ (Fin 3)) : ⟪toE3 u, toE3 v⟫ = ⟪u, v⟫ := by
  rw [WithLp.prod_inner_apply]
  simp [toE3, PiLp.inner_apply, Fin.sum_univ_two, Fin.sum_univ_three]
  ring

theorem toE3_norm (u : EuclideanSpace ℝ (Fin 3)) : ‖toE3 u‖ = ‖u‖ := by
  apply (sq_eq_sq₀ (norm_nonneg _) (norm_nonneg _)).1
  rw [← real_inner_self_eq_norm_sq, toE3_inner, real_inner_self_eq_norm_sq]

theorem toE3_injective : Function.Injective toE3 := fun u v h => by
  have h0 := congrArg (fun w : E3 => w.fst) h
  have h1 := congrArg (fun w : E3 => w.snd 0) h
  have h2 := congrArg (fun w : E3 => w.snd 1) h
  ext i
  fin_cases i
  · exact h0
  · exact h1
  · exact h2

/-- Half the range, as an angle. -/
def capA (r : ℝ) : ℝ := r * Real.pi / 360

theorem capA_pos {r : ℝ} (hr : 0 < r) : 0 < capA r := by unfold capA; have := Real.pi_pos; positivity

/-- The spherical model at the great-circle distance. -/
theorem spherical_sphere (a : ℝ) {r : ℝ} (hr : 0 < r) {u v : EuclideanSpace ℝ (Fin 3)} (hu : ‖u‖ = 1) (hv : ‖v‖ = 1) :
    sphericalFormula a r 0 (180 / Real.pi * InnerProductGeometry.angle u v) =
      a * ((capA r ^ 2 * min (capA r) (Real.pi / 2) - min (capA r) (Real.pi / 2) ^ 3 / 3) * (3 / (2 * capA r ^ 3)) -
        3 / (2 * Real.pi * capA r ^ 3) * (capK (capA r) (min (capA r) (Real.pi / 2)) (toE3 u) (toE3 v)).toReal) := by
  have hpi := Real.pi_pos
  have hA := capA_pos hr
  have hr' : r = 360 / Real.pi * capA r := by unfold capA; field_simp
  have hang : InnerProductGeometry.angle u v = Real.arccos ⟪u, v⟫ := by
    unfold InnerProductGeometry.angle; rw [hu, hv]; simp
  rw [capK_eq hA rfl (by rw [toE3_norm, hu]) (by rw [toE3_norm, hv]), toE3_inner, ← hang]
  have h0 := InnerProductGeometry.angle_nonneg u v
  have h1 := InnerProductGeometry.angle_le_pi u v
  generalize InnerProductGeometry.angle u v = θ at h0 h1
  have hle : 180 / Real.pi * θ ≤ r ↔ θ / 2 ≤ capA r := by
    unfold capA
    rw [div_mul_eq_mul_div, div_le_iff₀ hpi]
    constructor <;> intro h <;> linarith
  have hβA : min (capA r) (Real.pi / 2) ≤ capA r := min_le_left _ _
  have hβ0 : 0 < min (capA r) (Real.pi / 2) := lt_min hA (by positivity)
  have formula : sphericalFormula a r 0 (180 / Real.pi * θ) =
      a * (if θ / 2 ≤ capA r then 3 * (θ / 2) / (2 * capA r) - (θ / 2) ^ 3 / (2 * capA r ^ 3) else 1) := by
    unfold sphericalFormula
    by_cases h : θ / 2 ≤ capA r
    · rw [if_pos h, if_pos (hle.2 h)]
      unfold capA
      field_simp
      ring
    · rw [if_neg h, if_neg fun hc => h (hle.1 hc)]
      ring
  rw [formula]
  congr 1
  set A := capA r
  by_cases h : θ / 2 < min A (Real.pi / 2)
  · rw [if_pos h, if_pos (h.le.trans hβA), ENNReal.toReal_ofReal]
    · field_simp
      ring
    · refine mul_nonneg hpi.le ?_
      generalize min A (Real.pi / 2) = β at *
      nlinarith [mul_nonneg (sub_nonneg.2 h.le) (sub_nonneg.2 hβA), mul_pos hβ0 hβ0, mul_nonneg h0 hβ0.le,
        mul_nonneg (sub_nonneg.2 h.le) (mul_nonneg (sub_nonneg.2 hβA) (by linarith : 0 ≤ A + β)),
        mul_nonneg (sub_nonneg.2 h.le) (mul_nonneg (sub_nonneg.2 h.le) (by linarith : 0 ≤ θ / 2 + 2 * β))]
  · rw [if_neg h]
    have h' := not_lt.1 h
    simp only [ENNReal.ofReal_zero, ENNReal.toReal_zero, mul_zero, sub_zero]
    rcases le_total A (Real.pi / 2) with hc | hc
    · rw [min_eq_left hc] at h' ⊢
      by_cases he : θ / 2 ≤ A
      · have : θ / 2 = A := le_antisymm he h'
        rw [if_pos he, this]
        field_simp
      · rw [if_neg he]
        field_simp
        ring
    · rw [min_eq_right hc] at h' ⊢
      have : θ / 2 = Real.pi / 2 := by linarith
      rw [this, if_pos hc]
      field_simp

section
variable {ι : Type} [Fintype ι]

theorem spherical_sphere_base {a r : ℝ} (ha : 0 ≤ a) (hr : 0 < r) {x : ι → EuclideanSpace ℝ (Fin 3)} (hx : ∀ i, ‖x i‖ = 1) :
    CondNeg fun i j => sphericalFormula a r 0 (180 / Real.pi * InnerProductGeometry.angle (x i) (x j)) := by
  have hpi := Real.pi_pos
  have hA := capA_pos hr
  simp only [fun i j => spherical_sphere a hr (hx i) (hx j)]
  refine (PSD.sub (K := fun i j => 3 / (2 * Real.pi * capA r ^ 3) *
    (capK (capA r) (min (capA r) (Real.pi / 2)) (toE3 (x i)) (toE3 (x j))).toReal) ?_ _).smul ha
  have := psd_iff.1 (capK_psd (x := fun i => toE3 (x i)) hA rfl fun i => by rw [toE3_norm, hx])
  rw [psd_iff]
  refine ⟨fun i j => by rw [this.1], fun c => ?_⟩
  rw [quad_smul]
  exact mul_nonneg (by positivity) (this.2 c)

theorem spherical_sphere_strict {a r : ℝ} (ha : 0 < a) (hr : 0 < r) {x : ι → EuclideanSpace ℝ (Fin 3)}
    (hx : ∀ i, ‖x i‖ = 1) (hinj : Function.Injective x) :
    StrictCondNeg fun i j => sphericalFormula a r 0 (180 / Real.pi * InnerProductGeometry.angle (x i) (x j)) := by
  have hpi := Real.pi_pos
  have hA := capA_pos hr
  simp only [fun i j => spherical_sphere a hr (hx i) (hx j)]
  have hn : ∀ i, ‖toE3 (x i)‖ = 1 := fun i => by rw [toE3_norm, hx]
  refine (strict_sub (K := fun i j => 3 / (2 * Real.pi * capA r ^ 3) *
    (capK (capA r) (min (capA r) (Real.pi / 2)) (toE3 (x i)) (toE3 (x j))).toReal) ?_ ?_ _).smul ha
  · intro i j
    rw [(psd_iff.1 (capK_psd (x := fun i => toE3 (x i)) hA rfl hn)).1]
  · intro b hb
    rw [quad_smul]
    exact mul_pos (by positivity) (capK_pos (x := fun i => toE3 (x i)) hA rfl hn (toE3_injective.comp hinj) hb)

end

end
end PyKrige
