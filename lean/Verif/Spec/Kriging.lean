import Mathlib.Data.Real.Basic
import Mathlib.Algebra.BigOperators.Group.Finset.Basic
import Mathlib.Data.Fintype.BigOperators

/-!
# Textbook kriging, independent of the program

The kriging equations of ordinary and universal kriging, as in any geostatistics text: data are indexed by
`ι`, drift functions by `κ` (ordinary kriging: `κ` empty).
-/

namespace PyKrige.Spec
noncomputable section

variable {ι κ : Type} [Fintype ι] [Fintype κ]

/-- The kriging equations: `G i j` semivariance between data `i` and `j`, `F l i` drift `l` at datum
`i`, `g i` semivariance between datum `i` and the prediction point, `f l` drift `l` at the prediction
point, `w` weights, `ν`, `μ` Lagrange multipliers.  `c` is the sum the weights must have (1 for
prediction). -/
structure KrigingEqs (G : ι → ι → ℝ) (F : κ → ι → ℝ) (g : ι → ℝ) (f : κ → ℝ) (c : ℝ)
    (w : ι → ℝ) (ν : κ → ℝ) (μ : ℝ) : Prop where
  stationary : ∀ i, ∑ j, G i j * w j - ∑ l, F l i * ν l - μ = g i
  drift : ∀ l, ∑ i, F l i * w i = f l
  unbiased : ∑ i, w i = c

/-- The estimate `∑ wᵢ zᵢ`. -/
def estimate (w z : ι → ℝ) : ℝ := ∑ i, w i * z i

/-- The kriging variance `∑ wᵢ gᵢ - ∑ νₗ fₗ - μ`. -/
def krigingVariance (g : ι → ℝ) (f : κ → ℝ) (w : ι → ℝ) (ν : κ → ℝ) (μ : ℝ) : ℝ :=
  ∑ i, w i * g i - ∑ l, ν l * f l - μ

/-- The mean squared prediction error of the linear predictor with weights `w` summing to one, in terms
of the variogram: `2 ∑ wᵢ gᵢ - ∑ wᵢ wⱼ Gᵢⱼ`. -/
def errorVariance (G : ι → ι → ℝ) (g : ι → ℝ) (w : ι → ℝ) : ℝ :=
  2 * ∑ i, w i * g i - ∑ i, ∑ j, w i * w j * G i j

/-- The kriging system is regular (its matrix is invertible): the homogeneous equations only have the
zero solution. -/
def Regular (G : ι → ι → ℝ) (F : κ → ι → ℝ) : Prop :=
  ∀ w ν μ, KrigingEqs G F 0 0 0 w ν μ → w = 0 ∧ ν = 0 ∧ μ = 0

open Classical in
/-- Semivariances between the data: the variogram of the distance, 0 for a datum with itself. -/
def semivar (γ : ℝ → ℝ) (d : ι → ι → ℝ) (i j : ι) : ℝ := if i = j then 0 else γ (d i j)

open Classical in
/-- Semivariances between the data and the prediction point: the variogram of the distance; with
`exact` set, 0 for data closer than `1e-10` (they are taken to be the same location). -/
def semivarTo (exact : Bool) (γ : ℝ → ℝ) (d : ι → ℝ) (i : ι) : ℝ :=
  if exact = true ∧ d i ≤ 1 / 10 ^ 10 then 0 else γ (d i)

end
end PyKrige.Spec
