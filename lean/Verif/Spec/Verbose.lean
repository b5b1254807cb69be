import Verif.Model.Verbose

/-!
# What a verbose call should say

The numbers in the printed report, in order and with their labels, and what they must mean: they describe the
semivariogram that the object uses, and they are the statistics that the object reports.
-/

namespace PyKrige.Spec
noncomputable section

/-- The numbers in the output, with their labels. -/
def numbers : List Printed → List (String × ℝ)
  | [] => []
  | .text _ :: l => numbers l
  | .value label v :: l => (label, v) :: numbers l

open Classical in
/-- `Describes model labelled g`: the labelled numbers are the ones that make the named model the curve `g`. -/
inductive Describes : String → List (String × ℝ) → Py (ℝ → ℝ) → Prop
  | linear (slope nugget : ℝ) :
      Describes "linear" [("Slope:", slope), ("Nugget:", nugget)] (.ok fun d => slope * d + nugget)
  | power (scale exponent nugget : ℝ) :
      Describes "power" [("Scale:", scale), ("Exponent:", exponent), ("Nugget:", nugget)]
        (.ok fun d => scale * d ^ exponent + nugget)
  | gaussian (psill sill range nugget : ℝ) (h : sill = psill + nugget) :
      Describes "gaussian" [("Partial Sill:", psill), ("Full Sill:", sill), ("Range:", range), ("Nugget:", nugget)]
        (.ok fun d => psill * (1 - Real.exp (-d ^ 2 / (range * 4 / 7) ^ 2)) + nugget)
  | exponential (psill sill range nugget : ℝ) (h : sill = psill + nugget) :
      Describes "exponential" [("Partial Sill:", psill), ("Full Sill:", sill), ("Range:", range), ("Nugget:", nugget)]
        (.ok fun d => psill * (1 - Real.exp (-d / (range / 3))) + nugget)
  | spherical (psill sill range nugget : ℝ) (h : sill = psill + nugget) :
      Describes "spherical" [("Partial Sill:", psill), ("Full Sill:", sill), ("Range:", range), ("Nugget:", nugget)]
        (.ok fun d => if d ≤ range then psill * (3 * d / (2 * range) - d ^ 3 / (2 * range ^ 3)) + nugget else sill)
  | hole_effect (psill sill range nugget : ℝ) (h : sill = psill + nugget) :
      Describes "hole-effect" [("Partial Sill:", psill), ("Full Sill:", sill), ("Range:", range), ("Nugget:", nugget)]
        (.ok fun d => psill * (1 - (1 - d / (range / 3)) * Real.exp (-d / (range / 3))) + nugget)
  /-- of a custom model no number is printed -/
  | custom (g : Py (ℝ → ℝ)) : Describes "custom" [] g

/-- The three statistics with their labels; nothing without statistics. -/
def statisticsLines : Option (ℝ × ℝ × ℝ) → List (String × ℝ)
  | none => []
  | some (q1, q2, cr) => [("Q1 =", q1), ("Q2 =", q2), ("cR =", cr)]

/-- The number of wells of a point-logarithmic drift; nothing without one. -/
def wellsLine {α : Type} : Option (List α) → List (String × ℝ)
  | none => []
  | some wells => [("Implementing external point-logarithmic drift; number of points =", wells.length)]

/-- The line that names the model. -/
def modelLine (model : String) : Printed :=
  .text (if model = "custom" then "Using Custom Variogram Model" else "Using '" ++ model ++ "' Variogram Model")

end
end PyKrige.Spec
