import Verif.Model.RK
import Verif.Model.CK

/-! The `score` methods of `Krige`, `RegressionKriging` and `ClassificationKriging`. The two metrics are scikit-learn's;
they are modelled from its documentation and source, as far as these methods use them. The value `none` is `nan`. -/

namespace PyKrige
noncomputable section

/-- `sample_weight=None` weighs every sample by one. -/
def sampleWeights (n : ℕ) (w : Option (List ℝ)) : List ℝ := w.getD (List.replicate n 1)

/-- `np.average(v, weights=w)`: weights of sum zero are a `ZeroDivisionError`. -/
def npAverage (v w : List ℝ) : Py ℝ :=
  if w.sum = 0 then .error .zeroDivisionError else .ok ((List.zipWith (· * ·) w v).sum / w.sum)

/-- `(weight * (a - b) ** 2).sum()`. -/
def weightedSquares (w a b : List ℝ) : ℝ :=
  (List.zipWith (· * ·) w (List.zipWith (fun s t => (s - t) ^ 2) a b)).sum

/-- `sklearn.metrics.r2_score(y_true, y_pred, sample_weight)` for one output: arrays of different lengths and empty arrays
are a `ValueError`, a single sample gives `nan`; if the targets do not vary the score is 1 for exact predictions and 0 for
others. -/
def r2Score (yTrue yPred : List ℝ) (w : Option (List ℝ)) : Py (Option ℝ) :=
  if yTrue.length ≠ yPred.length ∨ (∃ l, w = some l ∧ l.length ≠ yTrue.length) ∨ yTrue.length = 0 then .error .valueError
  else if yPred.length < 2 then .ok none
  else do
    let weight := sampleWeights yTrue.length w
    let mean ← npAverage yTrue weight
    let numerator := weightedSquares weight yTrue yPred
    let denominator := weightedSquares weight yTrue (List.replicate yTrue.length mean)
    return some (if numerator = 0 then 1 else if denominator = 0 then 0 else 1 - numerator / denominator)

/-- `sklearn.metrics.accuracy_score(y_true, y_pred, sample_weight)`: the average of the indicators of `y_true == y_pred`.
Simplification: integer labels. -/
def accuracyScore (yTrue : List ℤ) (yPred : List ℕ) (w : Option (List ℝ)) : Py (Option ℝ) :=
  if yTrue.length ≠ yPred.length ∨ ∃ l, w = some l ∧ l.length ≠ yTrue.length then .error .valueError
  else
    let hit := List.zipWith (fun (t : ℤ) (p : ℕ) => if t = (p : ℤ) then (1 : ℝ) else 0) yTrue yPred
    match w with
    | none => .ok (if hit.length = 0 then none else some (hit.sum / hit.length))
    | some w => some <$> npAverage hit w

/-- rk.py:168-185, `RegressionKriging.score`. Simplification: for predictions with masked entries (for which the metric
would look at the data below the mask) the model raises. -/
def RK.score {P : Type} {R : Regressor P} {m : ℕ} (env : Env) (k : RK R) (p : Fin m → P) (x : Points) (y : List ℝ)
    (w : Option (List ℝ)) (kw : PredictKw) : Py (Option ℝ) := do
  let pred ← k.predict env p x kw
  let pred ← pred.mapM plainEntry
  r2Score y pred w

/-- `Krige.score`, inherited from scikit-learn's `RegressorMixin` (compat.py:97). -/
def Krige.score (env : Env) (k : Krige) (x : Points) (y : List ℝ) (w : Option (List ℝ)) : Py (Option ℝ) := do
  let pred ← k.predict env x {}
  let pred ← pred.mapM plainEntry
  r2Score y pred w

/-- ck.py:194-211, `ClassificationKriging.score`. -/
def CK.score {P : Type} {C : Classifier P ℤ} {m : ℕ} (env : Env) (k : CK C) (p : Fin m → P) (x : Points) (y : List ℤ)
    (w : Option (List ℝ)) (backend : Option String) : Py (Option ℝ) := do
  let pred ← k.predict env p x backend
  accuracyScore y pred w

end
end PyKrige
