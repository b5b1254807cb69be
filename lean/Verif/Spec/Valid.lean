import Verif.Spec.Kriging

/-!
# Valid variograms: conditional negative definiteness
-/

namespace PyKrige.Spec
noncomputable section

variable {ι : Type} [Fintype ι]

/-- Conditionally negative semidefinite: every contrast (coefficients with sum zero) has a non-negative
variance `-∑ᵢⱼ cᵢ cⱼ Gᵢⱼ`. -/
structure CondNeg (G : ι → ι → ℝ) : Prop where
  symm : ∀ i j, G i j = G j i
  contrast : ∀ c : ι → ℝ, ∑ i, c i = 0 → ∑ i, ∑ j, c i * c j * G i j ≤ 0

/-- Strictly so: every non-zero contrast has a positive variance. -/
structure StrictCondNeg (G : ι → ι → ℝ) : Prop where
  symm : ∀ i j, G i j = G j i
  contrast : ∀ c : ι → ℝ, ∑ i, c i = 0 → c ≠ 0 → ∑ i, ∑ j, c i * c j * G i j < 0

/-- The semivariances among the data (`G`) and from the data to one more point (`g`), in one table. -/
def withPoint (G : ι → ι → ℝ) (g : ι → ℝ) : Option ι → Option ι → ℝ
  | none, none => 0
  | none, some j => g j
  | some i, none => g i
  | some i, some j => G i j

end
end PyKrige.Spec
