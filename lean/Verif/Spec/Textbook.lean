import Mathlib.Analysis.SpecialFunctions.Exp
import Mathlib.Analysis.SpecialFunctions.Pow.Real

/-!
# The variogram models of the PyKrige documentation

Parameters in the order of the documented lists: `[slope, nugget]` for linear, `[scale, exponent, nugget]` for
power, `[sill, range, nugget]` for the others (`sill` is the full sill).
-/

namespace PyKrige.Spec
noncomputable section

open Classical in
def textbook (model : String) (parameters : List ℝ) : Option (ℝ → ℝ) :=
  match parameters with
  | [slope, nugget] => if model = "linear" then some fun d => slope * d + nugget else none
  | [a, b, nugget] =>
    if model = "power" then some fun d => a * d ^ b + nugget
    else if model = "gaussian" then
      some fun d => (a - nugget) * (1 - Real.exp (-(d ^ 2 / (4 / 7 * b) ^ 2))) + nugget
    else if model = "exponential" then some fun d => (a - nugget) * (1 - Real.exp (-(d / (b / 3)))) + nugget
    else if model = "spherical" then
      some fun d => if d ≤ b then (a - nugget) * (3 / 2 * (d / b) - 1 / 2 * (d / b) ^ 3) + nugget else a
    else if model = "hole-effect" then
      some fun d => (a - nugget) * (1 - (1 - d / (b / 3)) * Real.exp (-(d / (b / 3)))) + nugget
    else none
  | _ => none

end
end PyKrige.Spec
