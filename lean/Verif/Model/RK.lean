import Verif.Model.Compat

/-! Regression kriging (rk.py). -/

namespace PyKrige
noncomputable section

/-- A scikit-learn model. `P` is the type of a row of predictor variables, `Y` that of a target. `fit` returns what it
raises, if anything, and the state afterwards; `predict` sees the whole array of rows and gives one value for each.
Simplification: predicting does not change the state. `isRegressor`: it is an instance of `BaseEstimator` and
`RegressorMixin`. -/
structure Regressor (P : Type) where
  State : Type
  isRegressor : Bool := true
  fit : {n : ℕ} → State → (Fin n → P) → (Fin n → ℝ) → Py Unit × State
  predict : {m : ℕ} → State → (Fin m → P) → Py (Fin m → ℝ)

/-- A `RegressionKriging` object: the state of its regression model and its `Krige` object. -/
structure RK {P : Type} (R : Regressor P) where
  state : R.State
  krige : Krige

/-- `a + b` for arrays of one dimension, `a` possibly with masked entries: numpy broadcasts an array of length one. -/
def addArrays (a : List (Option ℝ)) (b : List ℝ) : Py (List (Option ℝ)) :=
  if a.length = b.length then .ok (List.zipWith (fun e f => e.map (· + f)) a b)
  else match a, b with
    | [e], b => .ok (b.map fun f => e.map (· + f))
    | a, [f] => .ok (a.map (Option.map (· + f)))
    | _, _ => .error .valueError

section
variable {P : Type} {R : Regressor P}

/-- rk.py:59-104, the constructor, with `check_sklearn_model` (compat.py:294-308). -/
def RK.init (st : R.State) (args : KrigeArgs) : Py (RK R) :=
  if R.isRegressor then do
    let k ← Krige.init args
    return { state := st, krige := k }
  else .error .runtimeError

/-- rk.py:106-127, `fit`: what it raises, if anything, and the object afterwards. Simplification: as many rows of
predictors and points as targets. -/
def RK.fit {n d : ℕ} (env : Env) (k : RK R) (p : Fin n → P) (x : Fin n → Fin d → ℝ) (y : Fin n → ℝ) : Py Unit × RK R :=
  match R.fit k.state p y with
  | (.error e, st) => (.error e, { k with state := st })
  | (.ok (), st) =>
    match R.predict st p with
    | .error e => (.error e, { k with state := st })
    | .ok mlPred =>
      let r := k.krige.fit env x fun i => y i - mlPred i
      (r.1, { state := st, krige := r.2 })

/-- rk.py:151-166, `krige_residual`. -/
def RK.krigeResidual (env : Env) (k : RK R) (x : Points) (kw : PredictKw) : Py (List (Option ℝ)) :=
  k.krige.predict env x kw

/-- rk.py:129-149, `predict`. Simplification: the result of kriging has one dimension (`style` is 'points', as by
default). -/
def RK.predict {m : ℕ} (env : Env) (k : RK R) (p : Fin m → P) (x : Points) (kw : PredictKw) : Py (List (Option ℝ)) := do
  let res ← k.krigeResidual env x kw
  let ml ← R.predict k.state p
  addArrays res (List.ofFn ml)

end

end
end PyKrige
