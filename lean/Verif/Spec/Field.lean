import Verif.Spec.Kriging

/-!
# Fields that a variogram calls smooth
-/

namespace PyKrige.Spec
noncomputable section

variable {P : Type}

/-- The variance that the variogram gives to the combination `∑ᵢ cᵢ Z(pᵢ)` of values at the places `pᵢ` (`∑ᵢ cᵢ = 0`). -/
def contrastVariance (dist : P → P → ℝ) (γ : ℝ → ℝ) {ι : Type} [Fintype ι] (p : ι → P) (c : ι → ℝ) : ℝ :=
  -∑ i, ∑ j, c i * c j * semivar γ (fun i j => dist (p i) (p j)) i j

/-- The field `f` has at most the roughness `E` by the measure of the variogram: the square of any contrast of its values is
at most `E` times the variance that the variogram gives to that contrast. -/
def RoughAtMost (dist : P → P → ℝ) (γ : ℝ → ℝ) (f : P → ℝ) (E : ℝ) : Prop :=
  ∀ (ι : Type) [Fintype ι] (p : ι → P) (c : ι → ℝ), ∑ i, c i = 0 →
    (∑ i, c i * f (p i)) ^ 2 ≤ E * contrastVariance dist γ p c

/-- The variogram is valid at all places. -/
def ValidOn (dist : P → P → ℝ) (γ : ℝ → ℝ) : Prop :=
  ∀ (ι : Type) [Fintype ι] (p : ι → P) (c : ι → ℝ), ∑ i, c i = 0 → 0 ≤ contrastVariance dist γ p c

/-- The semivariance becomes small at short distances (no nugget). -/
def NoJump (γ : ℝ → ℝ) : Prop := ∀ η : ℝ, 0 < η → ∃ δ : ℝ, 0 < δ ∧ ∀ d, 0 ≤ d → d < δ → γ d < η

end
end PyKrige.Spec
