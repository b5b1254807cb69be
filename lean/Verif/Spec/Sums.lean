import Verif.Spec.Best
import Mathlib.Data.Fintype.BigOperators

/-!
# Prediction of sums, means and differences, independent of the program
-/

namespace PyKrige.Spec
noncomputable section

variable {n : ℕ} {κ : Type} [Fintype κ]

/-- The mean squared error of predicting the combination `∑ₖ cₖ Z(qₖ)` by the combination `∑ᵢ uᵢ zᵢ` of the data, in terms of
the variogram (`∑ᵢ uᵢ = ∑ₖ cₖ`): `G` semivariances between the data, `g k` between the data and the place `k`, `H` between
the places. -/
def sumError (G : Fin n → Fin n → ℝ) (g : κ → Fin n → ℝ) (H : κ → κ → ℝ) (c : κ → ℝ) (u : Fin n → ℝ) : ℝ :=
  2 * ∑ k, ∑ i, c k * u i * g k i - ∑ i, ∑ j, u i * u j * G i j - ∑ k, ∑ l, c k * c l * H k l

/-- Weights that predict the combination `∑ₖ cₖ Z(qₖ)` without bias, whatever the constant mean and the coefficients of
the drifts: `D i` lists the values of the drift terms at datum `i`, `f k` those at the place `k`. -/
structure UnbiasedSum (D : Fin n → List ℝ) (f : κ → List ℝ) (c : κ → ℝ) (u : Fin n → ℝ) : Prop where
  total : ∑ i, u i = ∑ k, c k
  drift : ∀ l : ℕ, ∑ i, u i * (D i).getD l 0 = ∑ k, c k * (f k).getD l 0

/-- `est` is the prediction of the combination with the best unbiased weights, `err` its mean squared error. -/
structure IsBestSum (G : Fin n → Fin n → ℝ) (g : κ → Fin n → ℝ) (H : κ → κ → ℝ) (D : Fin n → List ℝ) (f : κ → List ℝ)
    (z : Fin n → ℝ) (c : κ → ℝ) (est err : ℝ) : Prop where
  exists_weights : ∃ w, UnbiasedSum D f c w ∧ est = ∑ i, w i * z i ∧ err = sumError G g H c w
  best : ∀ u, UnbiasedSum D f c u → err ≤ sumError G g H c u

/-- The semivariances among the data, from the data to the places, and among the places, in one table. -/
def withPlaces (G : Fin n → Fin n → ℝ) (g : κ → Fin n → ℝ) (H : κ → κ → ℝ) : Fin n ⊕ κ → Fin n ⊕ κ → ℝ
  | .inl i, .inl j => G i j
  | .inl i, .inr k => g k i
  | .inr k, .inl i => g k i
  | .inr k, .inr l => H k l

end
end PyKrige.Spec
