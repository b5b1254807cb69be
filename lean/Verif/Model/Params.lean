import Mathlib.Data.Real.Basic
import Verif.Py

/-! Model of the parameter handling in `src/pykrige/core.py`. -/

namespace PyKrige
noncomputable section

/-- What a user can pass as `variogram_parameters`: `None`, a dict with string keys, a list, or any
other object (tuple, ndarray, number, ...; they are all treated alike by the `type(...) is` tests).
A dict is given by its lookup function (insertion order plays no role in the code). -/
inductive ParamArg
  | none
  | dict (lookup : String → Option ℝ)
  | list (l : List ℝ)
  | other

/-- `_make_variogram_parameter_list`; core.py:196-376, branch by branch. -/
def makeVariogramParameterList (model : String) (p : ParamArg) : Py (Option (List ℝ)) :=
  match p with
  | .none => .ok Option.none
  | .dict d =>
    if model ∈ ["linear"] then
      match d "slope", d "nugget" with
      | some s, some n => .ok (some [s, n])
      | _, _ => .error .keyError
    else if model ∈ ["power"] then
      match d "scale", d "exponent", d "nugget" with
      | some s, some e, some n => .ok (some [s, e, n])
      | _, _, _ => .error .keyError
    else if model ∈ ["gaussian", "spherical", "exponential", "hole-effect"] then
      match d "range", d "nugget" with
      | some r, some n =>
        match d "sill" with
        | some s => .ok (some [s - n, r, n])
        | Option.none =>
          match d "psill" with
          | some ps => .ok (some [ps, r, n])
          | Option.none => .error .keyError
      | _, _ => .error .keyError
    else if model ∈ ["custom"] then .error .typeError
    else .error .valueError
  | .list l =>
    if model ∈ ["linear"] then
      if l.length ≠ 2 then .error .valueError else .ok (some l)
    else if model ∈ ["power"] then
      if l.length ≠ 3 then .error .valueError else .ok (some l)
    else if model ∈ ["gaussian", "spherical", "exponential", "hole-effect"] then
      if l.length ≠ 3 then .error .valueError
      else do
        let p0 ← pyGet l 0
        let p1 ← pyGet l 1
        let p2 ← pyGet l 2
        return some [p0 - p2, p1, p2]
    else if model ∈ ["custom"] then .ok (some l)
    else .error .valueError
  | .other => .error .typeError

end
end PyKrige
