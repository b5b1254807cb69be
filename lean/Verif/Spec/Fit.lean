import Verif.Spec.Env
import Verif.Props.C19
import Verif.Props.C02

/-!
# What a best fit is

`scipy.optimize.least_squares(..., loss='soft_l1')` is not modelled. `LsqOptimal` says that it finds the best parameters if
there are best parameters; `BestFit` says what the best parameters of a variogram model for an experimental variogram are.
-/

namespace PyKrige.Spec
noncomputable section

/-- The cost `least_squares` minimises with `loss='soft_l1'`: half the sum of `2 (√(1 + r²) - 1)` over the residuals. -/
def softL1 (r : List ℝ) : ℝ := (r.map fun t => √(1 + t ^ 2) - 1).sum

/-- A point of the right dimension within the bounds. -/
def Feasible (p : LsqProblem) (ps : List ℝ) : Prop :=
  ps.length = p.x0.length ∧ ∀ b ∈ ps.zip (p.lb.zip p.ub), b.2.1 ≤ b.1 ∧ (b.1 : WithTop ℝ) ≤ b.2.2

/-- A point within the bounds with the least cost. -/
def IsBestFor (res : List ℝ → Py (List ℝ)) (p : LsqProblem) (ps : List ℝ) : Prop :=
  Feasible p ps ∧ ∃ r, res ps = .ok r ∧ ∀ ps', Feasible p ps' → ∀ r', res ps' = .ok r' → softL1 r ≤ softL1 r'

/-- `least_squares` finds a point with the least cost, if there is one. -/
def LsqOptimal (env : Env) : Prop :=
  ∀ res p, lsqChecks p = .ok () → (∃ ps, IsBestFor res p ps) → IsBestFor res p (env.lsq res p)

/-- The weight of lag `t` among the lags `ls`: 1, or with `weight=True` the value of a logistic curve centred at 70% of the
span of the lags, divided by the sum over all lags. -/
def weightOf (weight : Bool) (ls : List ℝ) (t : ℝ) : ℝ :=
  let lo := sInf {v | v ∈ ls}
  let hi := sSup {v | v ∈ ls}
  let w := fun t => 1 / (1 + Real.exp (-(2.1972 / (0.1 * (hi - lo))) * (lo + 0.7 * (hi - lo) - t)))
  if weight then w t / (ls.map w).sum else 1

/-- How badly the variogram `γ` fits the experimental variogram `ev` (pairs of lag and semivariance). -/
def misfit (weight : Bool) (ev : List (ℝ × ℝ)) (γ : ℝ → ℝ) : ℝ :=
  softL1 (ev.map fun e => (γ e.1 - e.2) * weightOf weight (ev.map Prod.fst) e.1)

/-- `ps` are parameters within the bounds for which the model fits the experimental variogram best. -/
def BestFit (model : String) (weight : Bool) (ev : List (ℝ × ℝ)) (ps : List ℝ) : Prop :=
  ∃ S L, IsGreatest {v | v ∈ ev.map Prod.snd} S ∧ IsGreatest {v | v ∈ ev.map Prod.fst} L ∧ WithinBounds model S L ps ∧
    ∃ γ, Builtin model ps γ ∧
      ∀ ps' γ', WithinBounds model S L ps' → Builtin model ps' γ' → misfit weight ev γ ≤ misfit weight ev γ'

/-- The parameters (`variogram_model_parameters`: linear `[slope, nugget]`, power `[scale, exponent, nugget]`, others
`[psill, range, nugget]`) of the same variogram when distances are measured in a unit `c` times smaller. -/
def inUnit (c : ℝ) (model : String) : List ℝ → List ℝ
  | [slope, nugget] => [slope / c, nugget]
  | [a, b, nugget] => if model = "power" then [a / c ^ b, b, nugget] else [a, c * b, nugget]
  | ps => ps

/-- The list to pass as `variogram_parameters` to obtain the parameters `variogram_model_parameters`: the models with a sill
want the full sill. -/
def asArgument (model : String) : List ℝ → List ℝ
  | [a, b, nugget] => if model = "power" then [a, b, nugget] else [a + nugget, b, nugget]
  | ps => ps

open Classical in
/-- An environment whose `least_squares` is optimal. -/
def bestEnv : Env :=
  { stdEnv with lsq := fun res p => if h : ∃ ps, IsBestFor res p ps then h.choose else stdEnv.lsq res p }

theorem bestEnv_knn : KnnSpec bestEnv := stdEnv_knn

theorem bestEnv_optimal : LsqOptimal bestEnv := by
  intro res p _ h
  have : bestEnv.lsq res p = h.choose := dif_pos h
  rw [this]
  exact h.choose_spec

theorem bestEnv_lsq : LsqSpec bestEnv := by
  intro res p hc h1 h2
  by_cases h : ∃ ps, IsBestFor res p ps
  · exact (bestEnv_optimal res p hc h).1
  · have : bestEnv.lsq res p = stdEnv.lsq res p := dif_neg h
    rw [this]
    exact stdEnv_lsq res p hc h1 h2

end
end PyKrige.Spec
