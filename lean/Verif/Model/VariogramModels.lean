import Mathlib.Analysis.SpecialFunctions.Exp
import Mathlib.Analysis.SpecialFunctions.Pow.Real
import Verif.Py

/-!
Model of `src/pykrige/variogram_models.py` and `src/pykrige/lib/variogram_models.pyx`.

Each Python function first reads its parameters (`m[0]`, `m[1]`, ... - an `IndexError` when the list
is too short) and then applies an elementwise formula to the array of distances.  The model
separates the two: `f m : Py (ℝ → ℝ)` reads the parameters and returns the elementwise formula.
Numbers are exact reals; `x**2.0`, `x**3.0` with a literal integral exponent are natural powers.
Division by a zero range (NaN/inf in numpy) is Lean's `x / 0 = 0`; theorems assume a range ≠ 0
wherever it matters.
-/

namespace PyKrige
noncomputable section

/-- A variogram function with its parameters still to be supplied. -/
abbrev VFun := List ℝ → Py (ℝ → ℝ)

/-- `slope * d + nugget`; variogram_models.py:29 -/
def linearFormula (slope nugget : ℝ) (d : ℝ) : ℝ := slope * d + nugget

/-- `scale * d**exponent + nugget`; variogram_models.py:37 -/
def powerFormula (scale exponent nugget : ℝ) (d : ℝ) : ℝ := scale * d ^ exponent + nugget

/-- variogram_models.py:45 -/
def gaussianFormula (psill range_ nugget : ℝ) (d : ℝ) : ℝ :=
  psill * (1 - Real.exp (-(d ^ 2) / (range_ * 4 / 7) ^ 2)) + nugget

/-- variogram_models.py:53 -/
def exponentialFormula (psill range_ nugget : ℝ) (d : ℝ) : ℝ :=
  psill * (1 - Real.exp (-d / (range_ / 3))) + nugget

/-- variogram_models.py:61-70 (`np.piecewise` with `d <= range_` / `d > range_`) -/
def sphericalFormula (psill range_ nugget : ℝ) (d : ℝ) : ℝ :=
  if d ≤ range_ then
    psill * ((3 * d) / (2 * range_) - (d ^ 3) / (2 * range_ ^ 3)) + nugget
  else psill + nugget

/-- variogram_models.py:78-81 -/
def holeEffectFormula (psill range_ nugget : ℝ) (d : ℝ) : ℝ :=
  psill * (1 - (1 - d / (range_ / 3)) * Real.exp (-d / (range_ / 3))) + nugget

/-- `linear_variogram_model(m, d)`; variogram_models.py:25-29 -/
def linearVariogramModel : VFun := fun m => do
  let slope ← pyGet m 0
  let nugget ← pyGet m 1
  return linearFormula slope nugget

/-- `power_variogram_model(m, d)`; variogram_models.py:32-37 -/
def powerVariogramModel : VFun := fun m => do
  let scale ← pyGet m 0
  let exponent ← pyGet m 1
  let nugget ← pyGet m 2
  return powerFormula scale exponent nugget

/-- `gaussian_variogram_model(m, d)`; variogram_models.py:40-45 -/
def gaussianVariogramModel : VFun := fun m => do
  let psill ← pyGet m 0
  let range_ ← pyGet m 1
  let nugget ← pyGet m 2
  return gaussianFormula psill range_ nugget

/-- `exponential_variogram_model(m, d)`; variogram_models.py:48-53 -/
def exponentialVariogramModel : VFun := fun m => do
  let psill ← pyGet m 0
  let range_ ← pyGet m 1
  let nugget ← pyGet m 2
  return exponentialFormula psill range_ nugget

/-- `spherical_variogram_model(m, d)`; variogram_models.py:56-70 -/
def sphericalVariogramModel : VFun := fun m => do
  let psill ← pyGet m 0
  let range_ ← pyGet m 1
  let nugget ← pyGet m 2
  return sphericalFormula psill range_ nugget

/-- `hole_effect_variogram_model(m, d)`; variogram_models.py:73-81 -/
def holeEffectVariogramModel : VFun := fun m => do
  let psill ← pyGet m 0
  let range_ ← pyGet m 1
  let nugget ← pyGet m 2
  return holeEffectFormula psill range_ nugget

/-- The class attribute `variogram_dict`; ok.py:174-181 (same table in ok3d.py, uk.py, uk3d.py).
`none` = name not in the dictionary. -/
def variogramDict (name : String) : Option VFun :=
  if name = "linear" then some linearVariogramModel
  else if name = "power" then some powerVariogramModel
  else if name = "gaussian" then some gaussianVariogramModel
  else if name = "spherical" then some sphericalVariogramModel
  else if name = "exponential" then some exponentialVariogramModel
  else if name = "hole-effect" then some holeEffectVariogramModel
  else none

/-- The Python `__name__` of the function stored for a model name
(`variogram_function.__name__`, ok.py:927): the key used by the Cython lookup. -/
def variogramFunctionName (name : String) : String :=
  if name = "linear" then "linear_variogram_model"
  else if name = "power" then "power_variogram_model"
  else if name = "gaussian" then "gaussian_variogram_model"
  else if name = "spherical" then "spherical_variogram_model"
  else if name = "exponential" then "exponential_variogram_model"
  else if name = "hole-effect" then "hole_effect_variogram_model"
  else name

/-- `_c_linear_variogram_model`; lib/variogram_models.pyx:25-33.  The parameter reads are unchecked
in C (`boundscheck=False`); reading past the end is represented by `IndexError` (undefined behaviour
in reality).  The `for k` loop writes `out[k]` from `dist[k]` alone: elementwise. -/
def cLinear : VFun := fun m => do
  let a ← pyGet m 0
  let b ← pyGet m 1
  return fun d => a * d + b

/-- `_c_power_variogram_model`; lib/variogram_models.pyx:36-45 -/
def cPower : VFun := fun m => do
  let a ← pyGet m 0
  let b ← pyGet m 1
  let c ← pyGet m 2
  return fun d => a * (d ^ b) + c

/-- `_c_gaussian_variogram_model`; lib/variogram_models.pyx:48-57 -/
def cGaussian : VFun := fun m => do
  let a ← pyGet m 0
  let b ← pyGet m 1
  let c ← pyGet m 2
  return fun d => a * (1 - Real.exp (-(d / (b * 4 / 7)) ^ 2)) + c

/-- `_c_exponential_variogram_model`; lib/variogram_models.pyx:60-69 -/
def cExponential : VFun := fun m => do
  let a ← pyGet m 0
  let b ← pyGet m 1
  let c ← pyGet m 2
  return fun d => a * (1 - Real.exp (-d / (b / 3))) + c

/-- `_c_spherical_variogram_model`; lib/variogram_models.pyx:72-84 (branch on `dist[k] < b`) -/
def cSpherical : VFun := fun m => do
  let a ← pyGet m 0
  let b ← pyGet m 1
  let c ← pyGet m 2
  return fun d =>
    if d < b then a * ((3 * d) / (2 * b) - (d ^ 3) / (2 * b ^ 3)) + c
    else a + c

/-- `get_variogram_model(name)`; lib/variogram_models.pyx:6-22 -/
def cGetVariogramModel (name : String) : Py VFun :=
  if name = "linear_variogram_model" then .ok cLinear
  else if name = "power_variogram_model" then .ok cPower
  else if name = "gaussian_variogram_model" then .ok cGaussian
  else if name = "exponential_variogram_model" then .ok cExponential
  else if name = "spherical_variogram_model" then .ok cSpherical
  else .error .notImplementedError

end
end PyKrige
