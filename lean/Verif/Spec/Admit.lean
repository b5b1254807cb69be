import Verif.Model.VariogramModels
import Verif.Spec.Kriging

/-!
# Admissible built-in variograms
-/

namespace PyKrige.Spec
noncomputable section

/-- The parameters make the built-in model a variogram: none of slope, scale, psill and nugget is negative, the range
is positive, the exponent lies strictly between 0 and 2. -/
def ValidModel (name : String) (ps : List ℝ) : Prop :=
  (∃ slope nugget, name = "linear" ∧ ps = [slope, nugget] ∧ 0 ≤ slope ∧ 0 ≤ nugget) ∨
  (∃ scale exponent nugget, name = "power" ∧ ps = [scale, exponent, nugget] ∧ 0 ≤ scale ∧ 0 < exponent ∧
    exponent < 2 ∧ 0 ≤ nugget) ∨
  ∃ psill range nugget, name ∈ ["gaussian", "exponential", "spherical"] ∧ ps = [psill, range, nugget] ∧ 0 ≤ psill ∧
    0 < range ∧ 0 ≤ nugget

/-- The variogram does grow: slope, scale or psill is positive. -/
def Growing (ps : List ℝ) : Prop := ∃ a rest, ps = a :: rest ∧ 0 < a

/-- The nugget is positive. -/
def PositiveNugget (ps : List ℝ) : Prop := ∃ rest c, ps = rest ++ [c] ∧ 0 < c

/-- With `exact` set, a prediction point that is within `1e-10` of a datum coincides with it, and (unless the nugget is
0) with no other datum. -/
def Clear {ι : Type} (exact : Bool) (γ : ℝ → ℝ) (d : ι → ℝ) : Prop :=
  exact = true → ∀ i, d i ≤ 1 / 10 ^ 10 → d i = 0 ∧ (γ 0 = 0 ∨ ∀ k, k ≠ i → 1 / 10 ^ 10 < d k)

/-- The variogram separates the data: it does grow and the data lie at different places, or the nugget is positive. -/
def Separates {ι : Type} (ps : List ℝ) (D : ι → ι → ℝ) : Prop :=
  (Growing ps ∧ ∀ i j, i ≠ j → D i j ≠ 0) ∨ PositiveNugget ps

/-- What the list passed as `variogram_parameters` denotes: the sill is given instead of the partial sill. -/
def listMeaning (name : String) (l : List ℝ) : List ℝ :=
  match l with
  | [sill, range, nugget] => if name = "power" then l else [sill - nugget, range, nugget]
  | _ => l

end
end PyKrige.Spec
