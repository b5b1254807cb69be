import Verif.Spec.Admit
import Verif.Spec.Distance

/-!
# Variograms on the sphere
-/

namespace PyKrige.Spec
noncomputable section

/-- Built-in models that are variograms of the great-circle distance: linear, exponential, spherical, and power with an
exponent of at most 1; none of slope, scale, psill and nugget is negative, range and exponent are positive. -/
def ValidOnSphere (name : String) (ps : List ℝ) : Prop :=
  (∃ slope nugget, name = "linear" ∧ ps = [slope, nugget] ∧ 0 ≤ slope ∧ 0 ≤ nugget) ∨
  (∃ scale exponent nugget, name = "power" ∧ ps = [scale, exponent, nugget] ∧ 0 ≤ scale ∧ 0 < exponent ∧
    exponent ≤ 1 ∧ 0 ≤ nugget) ∨
  ∃ psill range nugget, (name = "exponential" ∨ name = "spherical") ∧ ps = [psill, range, nugget] ∧ 0 ≤ psill ∧ 0 < range ∧ 0 ≤ nugget

/-- The model is proportional to the distance (up to the nugget). -/
def Proportional (name : String) (ps : List ℝ) : Prop :=
  name = "linear" ∨ ∃ scale nugget, name = "power" ∧ ps = [scale, 1, nugget]

/-- The model separates data at the given places of the sphere: the nugget is positive; or it does grow and the places
are different, and, if it is proportional to the distance, no two of them are opposite each other. -/
def SeparatesOnSphere {ι : Type} (name : String) (ps : List ℝ) (p : ι → ℝ × ℝ) : Prop :=
  PositiveNugget ps ∨
    Growing ps ∧ (∀ i j, i ≠ j → onSphere (p i) ≠ onSphere (p j)) ∧
      (Proportional name ps → ∀ i j, onSphere (p i) ≠ -onSphere (p j))

end
end PyKrige.Spec
