import Verif.Spec.Env
import Verif.Model.UK3D
import Verif.Spec.Distance

/-!
# Side conditions of the theorems
-/

namespace PyKrige
noncomputable section

/-- The `__name__`s the compiled variograms are looked up by. -/
def cNames : List String := ["linear_variogram_model", "power_variogram_model",
  "gaussian_variogram_model", "exponential_variogram_model", "spherical_variogram_model"]

/-- A custom callable is not named like one of the built-in variogram functions. -/
def FunArg.NoClash : FunArg → Prop
  | .callable _ nm => nm ∉ cNames
  | _ => True

/-- The range is not zero, for the variogram functions that divide by it. -/
def RangeOk (fname : String) (ps : List ℝ) : Prop :=
  fname ∈ ["gaussian_variogram_model", "exponential_variogram_model", "spherical_variogram_model",
    "hole_effect_variogram_model"] → ps[1]? ≠ some 0

/-- A permitted moving window: none, or not more points than there are data. -/
def WindowFits (n : ℕ) (nClosest : Option ℤ) : Prop := ∀ k, nClosest = some k → k ≤ n

/-! The anisotropy in use: the one passed, or that of a GSTools model. -/

/-- The anisotropy in use: a GSTools model brings its own. -/
def effScaling (vm : ModelArg) (sc : ℝ) : ℝ :=
  match vm with
  | .name _ => sc
  | .gstools m => m.anis

def effAngle (vm : ModelArg) (an : ℝ) : ℝ :=
  match vm with
  | .name _ => an
  | .gstools m => m.angle

/-- The anisotropy in use in three dimensions. -/
def effAniso (vm : ModelArg) (an : Aniso3) : Aniso3 :=
  match vm with
  | .name _ => an
  | .gstools m => { scalingY := m.anisY, scalingZ := m.anisZ, angleX := m.angleX, angleY := m.angleY
                    angleZ := m.angleZ }

namespace Spec

/-- The caller gives the variogram parameters (or a GSTools model): nothing is fitted to the data. -/
def ParamsGiven (vm : ModelArg) (p : ParamArg) : Prop := (∃ m, vm = .gstools m) ∨ p ≠ .none

/-- What the theorems about `OrdinaryKriging` assume about the environment (KD-tree), the object and the
window size: the KD-tree returns nearest neighbours, a custom callable is not named like a built-in, the
range is not zero, the moving window is not larger than the data set. -/
structure Admissible {n : ℕ} (env : Env) (args : OKArgs) (s : OK n) (nClosest : Option ℤ) : Prop where
  knn : KnnSpec env
  noClash : args.variogramFunction.NoClash
  range : RangeOk s.functionName s.params
  window : WindowFits n nClosest

/-- The distance `OrdinaryKriging` is asked to use. -/
def okDistance (args : OKArgs) (p q : ℝ × ℝ) : ℝ :=
  distance2 args.coordinatesType (effScaling args.variogramModel args.anisotropyScaling)
    (effAngle args.variogramModel args.anisotropyAngle) p q

/-- The distance `OrdinaryKriging3D` is asked to use. -/
def ok3Distance (args : OK3DArgs) (p q : ℝ × ℝ × ℝ) : ℝ :=
  distance3 (effAniso args.variogramModel args.aniso) p q

/-- The distance `UniversalKriging` is asked to use. -/
def ukDistance (args : UKArgs) (p q : ℝ × ℝ) : ℝ :=
  anisoDist2 (effScaling args.variogramModel args.anisotropyScaling)
    (effAngle args.variogramModel args.anisotropyAngle) p q

/-- The distance `UniversalKriging3D` is asked to use. -/
def uk3Distance (args : UK3DArgs) (p q : ℝ × ℝ × ℝ) : ℝ :=
  distance3 (effAniso args.variogramModel args.aniso) p q

end Spec
end
end PyKrige
