import Verif.Model.UK3D

/-! Which variogram models and which parameters are acceptable, as documented. -/

namespace PyKrige.Spec
noncomputable section

/-- The built-in models. -/
def builtins : List String := ["linear", "power", "gaussian", "spherical", "exponential", "hole-effect"]

/-- GSTools is installed, in a version `≥ 1.3` (`≥ 1.4` for latlon models), and the object is one of its covariance
models. -/
def GsUsable (version : Option (ℕ × ℕ)) (m : GsModel) : Prop :=
  m.isCovModel = true ∧ ∃ major minor, version = some (major, minor) ∧ (1 < major ∨ major = 1 ∧ 3 ≤ minor) ∧
    (m.latlon = true → 1 < major ∨ major = 1 ∧ 4 ≤ minor)

/-- A built-in model, or "custom" together with a callable. -/
def NameUsable (s : String) (f : FunArg) : Prop := s ∈ builtins ∨ s = "custom" ∧ ∃ g nm, f = .callable g nm

/-- The models `OrdinaryKriging` can use (what the code checks: it lets GSTools models of dimension 4 and more
pass). -/
def OKModelUsable (env : Env) (coordinatesType : String) (vm : ModelArg) (f : FunArg) : Prop :=
  match vm with
  | .name s => NameUsable s f
  | .gstools m => GsUsable env.gstoolsVersion m ∧ m.fieldDim ≠ 3 ∧ ¬ (m.latlon = true ∧ coordinatesType = "euclidean")

/-- The models `UniversalKriging` can use. -/
def UKModelUsable (env : Env) (vm : ModelArg) (f : FunArg) : Prop :=
  match vm with
  | .name s => NameUsable s f
  | .gstools m => GsUsable env.gstoolsVersion m ∧ m.fieldDim ≠ 3 ∧ m.latlon = false

/-- The models the 3D classes can use. -/
def ModelUsable3 (env : Env) (vm : ModelArg) (f : FunArg) : Prop :=
  match vm with
  | .name s => NameUsable s f
  | .gstools m => GsUsable env.gstoolsVersion m ∧ 3 ≤ m.fieldDim

/-- Parameters given as a list of the right length, or a dict with the right keys (or not given). -/
def ParamsWellFormed (model : String) (p : ParamArg) : Prop :=
  match p with
  | .none => True
  | .list l => match model with
    | "linear" => l.length = 2
    | "power" => l.length = 3
    | "custom" => True
    | _ => l.length = 3
  | .dict d => match model with
    | "linear" => d "slope" ≠ none ∧ d "nugget" ≠ none
    | "power" => d "scale" ≠ none ∧ d "exponent" ≠ none ∧ d "nugget" ≠ none
    | "custom" => False
    | _ => (d "sill" ≠ none ∨ d "psill" ≠ none) ∧ d "range" ≠ none ∧ d "nugget" ≠ none
  | .other => False

end
end PyKrige.Spec
