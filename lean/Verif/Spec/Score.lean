import Mathlib.Analysis.Real.Sqrt
import Mathlib.Algebra.BigOperators.Fin

/-! The two measures of quality of C58 and C59. -/

namespace PyKrige.Spec
noncomputable section

/-- The weights of the samples: those given, or one for each. -/
def Weights (m : ℕ) (w : Option (List ℝ)) (ω : Fin m → ℝ) : Prop :=
  (w = none ∧ ∀ j, ω j = 1) ∨ w = some (List.ofFn ω)

/-- The weighted mean of the targets. -/
def targetMean {m : ℕ} (ω y : Fin m → ℝ) : ℝ := (∑ j, ω j * y j) / ∑ j, ω j

/-- The coefficient of determination of the predictions `f` for the targets `y`: one minus the ratio of the squared errors
of the predictions to those of the mean. -/
def determination {m : ℕ} (ω y f : Fin m → ℝ) : ℝ :=
  1 - (∑ j, ω j * (y j - f j) ^ 2) / ∑ j, ω j * (y j - targetMean ω y) ^ 2

open Classical in
/-- The weighted fraction of the samples of which the condition holds. -/
def fraction {m : ℕ} (ω : Fin m → ℝ) (A : Fin m → Prop) : ℝ := (∑ j, if A j then ω j else 0) / ∑ j, ω j

end
end PyKrige.Spec
