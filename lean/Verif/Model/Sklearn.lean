import Verif.Model.Score

/-! The parameter protocol that `Krige` takes over from scikit-learn's `BaseEstimator` (compat.py:11, 97): `get_params`,
`set_params`, `clone`, and the search over parameters of `GridSearchCV`, which the class says it supports (compat.py:99-102).
scikit-learn is not in the repository; its behaviour is modelled from its documentation. -/

namespace PyKrige
noncomputable section

/-- A keyword argument of the constructor of `Krige`, with its value; compat.py:143-164. `unknown`: any other keyword.
Simplification: `verbose` is left out (printing is not modelled); `ext_drift_grid` is a tuple of three; the integer flags
belong to the value (`KrigeArgs`). -/
inductive KParam
  | method (v : String)
  | variogramModel (v : ModelArg)
  | nlags (v : ℕ)
  | weight (v : Bool)
  | nClosest (v : Option ℤ)
  | exactValues (v : BoolArg)
  | pseudoInv (v : Bool)
  | pseudoInvType (v : String)
  | variogramParameters (v : ParamArg) (allInt : Bool)
  | variogramFunction (v : FunArg)
  | anisotropyScaling (v : List ℝ)
  | anisotropyAngle (v : List ℝ)
  | enableStatistics (v : Bool)
  | coordinatesType (v : String)
  | driftTerms (v : List String)
  | pointDrift (v : Option (List (ℝ × ℝ × ℝ))) (isInt : Bool)
  | extDriftGrid (v : Option ExtArg) (x y : Option (List ℝ))
  | functionalDrift (two : ListArg (ℝ → ℝ → ℝ)) (three : ListArg (ℝ → ℝ → ℝ → ℝ))
  | unknown (name : String)

/-- Its name; compat.py:145-163. -/
def KParam.name : KParam → String
  | .method _ => "method"
  | .variogramModel _ => "variogram_model"
  | .nlags _ => "nlags"
  | .weight _ => "weight"
  | .nClosest _ => "n_closest_points"
  | .exactValues _ => "exact_values"
  | .pseudoInv _ => "pseudo_inv"
  | .pseudoInvType _ => "pseudo_inv_type"
  | .variogramParameters _ _ => "variogram_parameters"
  | .variogramFunction _ => "variogram_function"
  | .anisotropyScaling _ => "anisotropy_scaling"
  | .anisotropyAngle _ => "anisotropy_angle"
  | .enableStatistics _ => "enable_statistics"
  | .coordinatesType _ => "coordinates_type"
  | .driftTerms _ => "drift_terms"
  | .pointDrift _ _ => "point_drift"
  | .extDriftGrid _ _ _ => "ext_drift_grid"
  | .functionalDrift _ _ => "functional_drift"
  | .unknown s => s

/-- Whether the constructor has a parameter for it. -/
def KParam.known : KParam → Bool
  | .unknown _ => false
  | _ => true

/-- `setattr(self, name, value)`: the attributes have the names of the parameters; compat.py:166-185. -/
def KrigeArgs.assign (a : KrigeArgs) : KParam → KrigeArgs
  | .method v => { a with method := v }
  | .variogramModel v => { a with variogramModel := v }
  | .nlags v => { a with nlags := v }
  | .weight v => { a with weight := v }
  | .nClosest v => { a with nClosest := v }
  | .exactValues v => { a with exactValues := v }
  | .pseudoInv v => { a with pseudoInv := v }
  | .pseudoInvType v => { a with pseudoInvType := v }
  | .variogramParameters v i => { a with params := v, paramsAllInt := i }
  | .variogramFunction v => { a with variogramFunction := v }
  | .anisotropyScaling v => { a with anisotropyScaling := v }
  | .anisotropyAngle v => { a with anisotropyAngle := v }
  | .enableStatistics v => { a with enableStatistics := v }
  | .coordinatesType v => { a with coordinatesType := v }
  | .driftTerms v => { a with driftTerms := v }
  | .pointDrift v i => { a with pointDrift := v, pointDriftInt := i }
  | .extDriftGrid v x y => { a with externalDrift := v, externalDriftX := x, externalDriftY := y }
  | .functionalDrift f g => { a with functionalDrift2 := f, functionalDrift3 := g }
  | .unknown _ => a

/-- `Krige(**kw)`: an unexpected keyword is a `TypeError`; the others replace the defaults, and `validate_method` looks at
the result (compat.py:143-185). -/
def Krige.new (kw : List KParam) : Py Krige :=
  if ∀ p ∈ kw, p.known then Krige.init (kw.foldl KrigeArgs.assign {}) else .error .typeError

/-- `get_params()`: the attribute of each parameter of the constructor, in alphabetical order. -/
def Krige.getParams (k : Krige) : List KParam :=
  [.anisotropyAngle k.args.anisotropyAngle, .anisotropyScaling k.args.anisotropyScaling,
   .coordinatesType k.args.coordinatesType, .driftTerms k.args.driftTerms, .enableStatistics k.args.enableStatistics,
   .exactValues k.args.exactValues, .extDriftGrid k.args.externalDrift k.args.externalDriftX k.args.externalDriftY,
   .functionalDrift k.args.functionalDrift2 k.args.functionalDrift3, .method k.args.method, .nClosest k.args.nClosest,
   .nlags k.args.nlags, .pointDrift k.args.pointDrift k.args.pointDriftInt, .pseudoInv k.args.pseudoInv,
   .pseudoInvType k.args.pseudoInvType, .variogramFunction k.args.variogramFunction,
   .variogramModel k.args.variogramModel, .variogramParameters k.args.params k.args.paramsAllInt, .weight k.args.weight]

/-- `set_params(**kw)`: it assigns one attribute after the other and stops with a `ValueError` at the first name that is
not a parameter. No value is checked, and the fitted model stays. -/
def Krige.setParamsKw : Krige → List KParam → Py Unit × Krige
  | k, [] => (.ok (), k)
  | k, p :: l => if p.known then ({ k with args := k.args.assign p }).setParamsKw l else (.error .valueError, k)

/-- `clone(k)`: a new object of the class with the same parameters. -/
def Krige.clone (k : Krige) : Py Krige := Krige.new k.getParams

/-- A call on a `Krige` object, with the parameter protocol. -/
inductive SCall
  | fit {n d : ℕ} (x : Fin n → Fin d → ℝ) (y : Fin n → ℝ)
  | predict (x : Points) (kw : PredictKw)
  | score (x : Points) (y : List ℝ) (w : Option (List ℝ))
  | setParams (kw : List KParam)
  | getParams

/-- What it returned. -/
inductive SOutcome
  | fit (r : Py Unit)
  | predict (r : Py (List (Option ℝ)))
  | score (r : Py (Option ℝ))
  | setParams (r : Py Unit)
  | getParams (r : List KParam)

/-- One call: what it returns and the object afterwards. `predict`, `score` and `get_params` assign no attribute. -/
def Krige.serve (env : Env) (k : Krige) : SCall → SOutcome × Krige
  | .fit x y => let r := k.fit env x y; (.fit r.1, r.2)
  | .predict x kw => (.predict (k.predict env x kw), k)
  | .score x y w => (.score (k.score env x y w), k)
  | .setParams kw => let r := k.setParamsKw kw; (.setParams r.1, r.2)
  | .getParams => (.getParams k.getParams, k)

/-- A sequence of calls. -/
def Krige.serveAll (env : Env) : Krige → List SCall → List SOutcome × Krige
  | k, [] => ([], k)
  | k, c :: l =>
    let r := k.serve env c
    let t := Krige.serveAll env r.2 l
    (r.1 :: t.1, t.2)

/-- A division of the data: points and values to fit to, points and values to score on. -/
structure Fold where
  n : ℕ
  d : ℕ
  trainX : Fin n → Fin d → ℝ
  trainY : Fin n → ℝ
  testX : Points
  testY : List ℝ

/-- One entry of the table of `GridSearchCV`: `clone(estimator).set_params(**candidate)`, then `fit`, then `score`. -/
def Krige.tryOut (env : Env) (k : Krige) (cand : List KParam) (f : Fold) : Py (Option ℝ) := do
  let c ← k.clone
  let (r, c) := c.setParamsKw cand
  r
  let (r, c) := c.fit env f.trainX f.trainY
  r
  c.score env f.testX f.testY none

/-- The table: a row for each candidate, an entry for each division. `error_score='raise'` is not modelled: an entry may be
an exception. -/
def Krige.gridTable (env : Env) (k : Krige) (cands : List (List KParam)) (folds : List Fold) :
    List (List (Py (Option ℝ))) :=
  cands.map fun cand => folds.map fun f => k.tryOut env cand f

/-- `best_estimator_`: the clone with the chosen candidate, fitted to all the data. -/
def Krige.refit {n d : ℕ} (env : Env) (k : Krige) (cand : List KParam) (x : Fin n → Fin d → ℝ) (y : Fin n → ℝ) :
    Py Krige := do
  let c ← k.clone
  let (r, c) := c.setParamsKw cand
  r
  let (r, c) := c.fit env x y
  r
  return c

end
end PyKrige
