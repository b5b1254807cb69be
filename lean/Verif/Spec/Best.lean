import Verif.Spec.Kriging
import Mathlib.Data.Set.Basic

/-!
# Best linear unbiased prediction, independent of the program
-/

namespace PyKrige.Spec
noncomputable section

variable {n : ℕ}

/-- Weights that use only the data in `S`, have sum 1 and reproduce every drift: `D i` lists the values of the drift
terms at datum `i`, `f` those at the prediction point (ordinary kriging: no drift terms). -/
structure Unbiased (S : Set (Fin n)) (D : Fin n → List ℝ) (f : List ℝ) (w : Fin n → ℝ) : Prop where
  support : ∀ i, i ∉ S → w i = 0
  sum_one : ∑ i, w i = 1
  drift : ∀ l : ℕ, ∑ i, w i * (D i).getD l 0 = f.getD l 0

/-- `est` is the prediction with the best unbiased weights (smallest mean squared prediction error) and `var` its
mean squared error; `z` are the data values. -/
structure IsBlue (S : Set (Fin n)) (G : Fin n → Fin n → ℝ) (g : Fin n → ℝ) (D : Fin n → List ℝ) (f : List ℝ)
    (z : Fin n → ℝ) (est var : ℝ) : Prop where
  exists_weights : ∃ w, Unbiased S D f w ∧ est = ∑ i, w i * z i ∧ var = errorVariance G g w
  best : ∀ u, Unbiased S D f u → var ≤ errorVariance G g u

end
end PyKrige.Spec
