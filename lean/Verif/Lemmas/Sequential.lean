import Verif.Spec.Kriging
import Mathlib.Algebra.BigOperators.Fin
import Mathlib.Tactic.LinearCombination
import Mathlib.Tactic.Ring

/-!
# Adding one datum to a kriging system

`o` is the number of the datum added; `o.succAbove i` is the number of the `i`-th of the others.
-/

namespace PyKrige
noncomputable section
open Spec

section
variable {n L : ℕ} {G : Fin (n + 1) → Fin (n + 1) → ℝ} {F : Fin L → Fin (n + 1) → ℝ} {g : Fin (n + 1) → ℝ} {f : Fin L → ℝ}
  {w : Fin (n + 1) → ℝ} {ν : Fin L → ℝ} {μ : ℝ} {o : Fin (n + 1)} {v : Fin n → ℝ} {α : Fin L → ℝ} {β : ℝ}

/-- The solution without datum `o`, from the solution with it and the solution that predicts `o` from the others. -/
theorem Spec.KrigingEqs.drop (e : KrigingEqs G F g f 1 w ν μ)
    (eo : KrigingEqs (fun i j => G (o.succAbove i) (o.succAbove j)) (fun l i => F l (o.succAbove i))
      (fun i => G (o.succAbove i) o) (fun l => F l o) 1 v α β) :
    KrigingEqs (fun i j => G (o.succAbove i) (o.succAbove j)) (fun l i => F l (o.succAbove i))
      (fun i => g (o.succAbove i)) f 1 (fun i => w (o.succAbove i) + w o * v i) (fun l => ν l + w o * α l) (μ + w o * β) := by
  refine ⟨fun i => ?_, fun l => ?_, ?_⟩
  · have h1 := e.stationary (o.succAbove i)
    have h2 := eo.stationary i
    rw [Fin.sum_univ_succAbove _ o] at h1
    have s1 : ∑ j, G (o.succAbove i) (o.succAbove j) * (w (o.succAbove j) + w o * v j) =
        ∑ j, G (o.succAbove i) (o.succAbove j) * w (o.succAbove j) + w o * ∑ j, G (o.succAbove i) (o.succAbove j) * v j := by
      rw [Finset.mul_sum, ← Finset.sum_add_distrib]
      exact Finset.sum_congr rfl fun j _ => by ring
    have s2 : ∑ l, F l (o.succAbove i) * (ν l + w o * α l) =
        ∑ l, F l (o.succAbove i) * ν l + w o * ∑ l, F l (o.succAbove i) * α l := by
      rw [Finset.mul_sum, ← Finset.sum_add_distrib]
      exact Finset.sum_congr rfl fun j _ => by ring
    rw [s1, s2]
    linear_combination h1 + w o * h2
  · have h1 := e.drift l
    have h2 := eo.drift l
    rw [Fin.sum_univ_succAbove _ o] at h1
    have s1 : ∑ i, F l (o.succAbove i) * (w (o.succAbove i) + w o * v i) =
        ∑ i, F l (o.succAbove i) * w (o.succAbove i) + w o * ∑ i, F l (o.succAbove i) * v i := by
      rw [Finset.mul_sum, ← Finset.sum_add_distrib]
      exact Finset.sum_congr rfl fun j _ => by ring
    rw [s1]
    linear_combination h1 + w o * h2
  · have h1 := e.unbiased
    have h2 := eo.unbiased
    rw [Fin.sum_univ_succAbove _ o] at h1
    rw [Finset.sum_add_distrib, ← Finset.mul_sum]
    linear_combination h1 + w o * h2

/-- The estimates. -/
theorem estimate_drop (z : Fin (n + 1) → ℝ) :
    estimate w z = estimate (fun i => w (o.succAbove i) + w o * v i) (fun i => z (o.succAbove i)) +
      w o * (z o - estimate v fun i => z (o.succAbove i)) := by
  unfold estimate
  rw [Fin.sum_univ_succAbove _ o]
  have : ∑ i, (w (o.succAbove i) + w o * v i) * z (o.succAbove i) =
      ∑ i, w (o.succAbove i) * z (o.succAbove i) + w o * ∑ i, v i * z (o.succAbove i) := by
    rw [Finset.mul_sum, ← Finset.sum_add_distrib]
    exact Finset.sum_congr rfl fun j _ => by ring
  rw [this]
  ring

/-- The variances. -/
theorem Spec.KrigingEqs.variance_drop (hsym : ∀ i j, G i j = G j i) (h0 : G o o = 0) (e : KrigingEqs G F g f 1 w ν μ)
    (eo : KrigingEqs (fun i j => G (o.succAbove i) (o.succAbove j)) (fun l i => F l (o.succAbove i))
      (fun i => G (o.succAbove i) o) (fun l => F l o) 1 v α β) :
    krigingVariance g f w ν μ =
      krigingVariance (fun i => g (o.succAbove i)) f (fun i => w (o.succAbove i) + w o * v i) (fun l => ν l + w o * α l) (μ + w o * β) -
        w o ^ 2 * krigingVariance (fun i => G (o.succAbove i) o) (fun l => F l o) v α β := by
  unfold krigingVariance
  rw [Fin.sum_univ_succAbove _ o]
  have s1 : ∑ i, (w (o.succAbove i) + w o * v i) * g (o.succAbove i) =
      ∑ i, w (o.succAbove i) * g (o.succAbove i) + w o * ∑ i, v i * g (o.succAbove i) := by
    rw [Finset.mul_sum, ← Finset.sum_add_distrib]
    exact Finset.sum_congr rfl fun j _ => by ring
  have s2 : ∑ l, (ν l + w o * α l) * f l = ∑ l, ν l * f l + w o * ∑ l, α l * f l := by
    rw [Finset.mul_sum, ← Finset.sum_add_distrib]
    exact Finset.sum_congr rfl fun j _ => by ring
  rw [s1, s2]
  -- the semivariances with the prediction point, weighted by the prediction of `o`
  have key : ∑ i, v i * g (o.succAbove i) = g o + ∑ l, α l * f l + β +
      w o * (∑ i, v i * G (o.succAbove i) o - ∑ l, α l * F l o - β) := by
    have h1 : ∑ i, v i * g (o.succAbove i) = ∑ i, ∑ j, v i * (G (o.succAbove i) (o.succAbove j) * w (o.succAbove j)) +
        w o * ∑ i, v i * G (o.succAbove i) o - ∑ l, ν l * F l o - μ := by
      have : ∀ i, v i * g (o.succAbove i) = ∑ j, v i * (G (o.succAbove i) (o.succAbove j) * w (o.succAbove j)) +
          w o * (v i * G (o.succAbove i) o) - ∑ l, ν l * (F l (o.succAbove i) * v i) - μ * v i := by
        intro i
        have h1 := e.stationary (o.succAbove i)
        rw [Fin.sum_univ_succAbove _ o] at h1
        have s3 : ∑ l, ν l * (F l (o.succAbove i) * v i) = v i * ∑ l, F l (o.succAbove i) * ν l := by
          rw [Finset.mul_sum]; exact Finset.sum_congr rfl fun j _ => by ring
        rw [← Finset.mul_sum, s3]
        linear_combination -v i * h1
      rw [Finset.sum_congr rfl fun i _ => this i, Finset.sum_sub_distrib, Finset.sum_sub_distrib, Finset.sum_add_distrib,
        ← Finset.mul_sum, ← Finset.mul_sum, eo.unbiased, Finset.sum_comm (s := Finset.univ) (t := Finset.univ) (f := fun i l => ν l * (F l (o.succAbove i) * v i))]
      have s4 : ∑ l, ∑ i, ν l * (F l (o.succAbove i) * v i) = ∑ l, ν l * F l o :=
        Finset.sum_congr rfl fun l _ => by rw [← Finset.mul_sum, eo.drift l]
      rw [s4]; ring
    have h2 : ∑ i, ∑ j, v i * (G (o.succAbove i) (o.succAbove j) * w (o.succAbove j)) =
        ∑ j, w (o.succAbove j) * G (o.succAbove j) o + ∑ l, α l * (f l - F l o * w o) + β * (1 - w o) := by
      rw [Finset.sum_comm]
      have : ∀ j, ∑ i, v i * (G (o.succAbove i) (o.succAbove j) * w (o.succAbove j)) =
          w (o.succAbove j) * G (o.succAbove j) o + ∑ l, α l * (F l (o.succAbove j) * w (o.succAbove j)) + β * w (o.succAbove j) := by
        intro j
        have h1 := eo.stationary j
        have s3 : ∑ i, v i * (G (o.succAbove i) (o.succAbove j) * w (o.succAbove j)) =
            w (o.succAbove j) * ∑ i, G (o.succAbove j) (o.succAbove i) * v i := by
          rw [Finset.mul_sum]; exact Finset.sum_congr rfl fun i _ => by rw [hsym (o.succAbove i)]; ring
        have s4 : ∑ l, α l * (F l (o.succAbove j) * w (o.succAbove j)) = w (o.succAbove j) * ∑ l, F l (o.succAbove j) * α l := by
          rw [Finset.mul_sum]; exact Finset.sum_congr rfl fun i _ => by ring

        rw [s3, s4]
        linear_combination w (o.succAbove j) * h1
      rw [Finset.sum_congr rfl fun j _ => this j, Finset.sum_add_distrib, Finset.sum_add_distrib, ← Finset.mul_sum,
        Finset.sum_comm (s := Finset.univ) (t := Finset.univ) (f := fun j l => α l * (F l (o.succAbove j) * w (o.succAbove j)))]
      have s4 : ∑ l, ∑ i, α l * (F l (o.succAbove i) * w (o.succAbove i)) = ∑ l, α l * (f l - F l o * w o) := by
        refine Finset.sum_congr rfl fun l _ => ?_
        have h1 := e.drift l
        rw [Fin.sum_univ_succAbove _ o] at h1
        rw [← Finset.mul_sum]
        linear_combination α l * h1
      have h1 := e.unbiased
      rw [Fin.sum_univ_succAbove _ o] at h1
      rw [s4]
      linear_combination β * h1
    have h3 := e.stationary o
    rw [Fin.sum_univ_succAbove _ o, h0] at h3
    have s5 : ∑ j, G o (o.succAbove j) * w (o.succAbove j) = ∑ j, w (o.succAbove j) * G (o.succAbove j) o :=
      Finset.sum_congr rfl fun j _ => by rw [hsym]; ring
    have s6 : ∑ l, F l o * ν l = ∑ l, ν l * F l o := Finset.sum_congr rfl fun j _ => by ring
    have s7 : ∑ l, α l * (f l - F l o * w o) = ∑ l, α l * f l - w o * ∑ l, α l * F l o := by
      rw [Finset.mul_sum, ← Finset.sum_sub_distrib]
      exact Finset.sum_congr rfl fun j _ => by ring
    rw [s5, s6] at h3
    rw [h1, h2, s7]
    linear_combination h3
  rw [key]
  ring

/-- Drift terms may be shifted by constants. -/
theorem Spec.KrigingEqs.shift_drift {ι : Type} [Fintype ι] {G : ι → ι → ℝ} {F F' : Fin L → ι → ℝ} {g : ι → ℝ} {f' : Fin L → ℝ} {w : ι → ℝ}
    {K : Fin L → ℝ} (hF : ∀ l i, F' l i = F l i + K l) (hf : ∀ l, f' l = f l + K l) (e : KrigingEqs G F' g f' 1 w ν μ) :
    KrigingEqs G F g f 1 w ν (μ + ∑ l, K l * ν l) ∧
      krigingVariance g f' w ν μ = krigingVariance g f w ν (μ + ∑ l, K l * ν l) := by
  refine ⟨⟨fun i => ?_, fun l => ?_, e.unbiased⟩, ?_⟩
  · rw [← e.stationary i]
    simp only [hF, add_mul, Finset.sum_add_distrib]
    ring
  · have := e.drift l
    simp only [hF, add_mul, Finset.sum_add_distrib, ← Finset.mul_sum, e.unbiased, hf] at this
    linear_combination this
  · unfold krigingVariance
    have : ∑ l, ν l * f' l = ∑ l, ν l * f l + ∑ l, K l * ν l := by
      rw [← Finset.sum_add_distrib]
      exact Finset.sum_congr rfl fun l _ => by rw [hf]; ring
    rw [this]; ring

end
end
end PyKrige
