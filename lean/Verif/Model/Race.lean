import Verif.Model.OK

/-!
# `update_variogram_model` while `execute` is running

Two threads use one `OrdinaryKriging` object without a lock: one calls `execute`, the other `update_variogram_model`.
`update_variogram_model` assigns attributes one after the other; `OK.updateSteps` lists the states of the object before,
between and after these assignments. `execute` reads attributes at several moments; `OK.executeSeen` is `execute` with the
state seen at each moment given from outside.

Simplifications: within one moment (building the kriging matrix; adjusting the query points; the distances, the inversion
and the whole of the vectorized and C loops; one iteration of the Python loops) `execute` sees one state. The single
attribute `variogram_function` is modelled by its meaning and its name, `variogram_model_parameters` by the list and whether
it holds integers, `lags` and `semivariance` by one list, and the statistics by one record; each of these changes in one
step.
-/

namespace PyKrige
noncomputable section
open Matrix

open Classical in
/-- The states after each assignment of the anisotropy part of `update_variogram_model`; ok.py:463-488. -/
def OK.anisoSteps {n : ℕ} (s : OK n) (scaling angle : ℝ) : List (OK n) :=
  if scaling ≠ s.anisotropyScaling ∨ angle ≠ s.anisotropyAngle then
    if s.coordinatesType = "euclidean" then
      let adj := adjustData2 s.X_ORIG s.Y_ORIG s.XCENTER s.YCENTER scaling angle
      let s1 := { s with anisotropyScaling := scaling }
      let s2 := { s1 with anisotropyAngle := angle }
      let s3 := { s2 with X_ADJUSTED := fun i => adj i 0 }
      let s4 := { s3 with Y_ADJUSTED := fun i => adj i 1 }
      [s1, s2, s3, s4]
    else if s.coordinatesType = "geographic" then
      let s1 := { s with anisotropyScaling := 1 }
      let s2 := { s1 with anisotropyAngle := 0 }
      let s3 := { s2 with X_ADJUSTED := s.X_ORIG }
      let s4 := { s3 with Y_ADJUSTED := s.Y_ORIG }
      [s1, s2, s3, s4]
    else []
  else []

/-- The states of the object before, between and after the assignments of `update_variogram_model`; ok.py:426-548. -/
def OK.updateSteps {n : ℕ} (env : Env) (s : OK n) (u : OKUpdate) : List (OK n) :=
  let s1 := { s with variogramModel := u.variogramModel }
  let s2 := { s1 with model := none }
  [s, s1, s2] ++
  match OK.resolveModel env s.coordinatesType u.variogramModel u.variogramFunction u.params
      u.anisotropyScaling u.anisotropyAngle with
  | .error _ =>
    match u.variogramModel with
    | .gstools m => [{ s2 with model := some m }]
    | .name _ => []
  | .ok (name, model, fArg, pArg, scaling, angle) =>
  let s3 := { s2 with model := model }
  let s4 := { s3 with variogramModel := .name name }
  [s3, s4] ++
  match chooseFunction name fArg with
  | .error _ => []
  | .ok (f, fname) =>
  let s5 := { s4 with variogramFunction := f, functionName := fname }
  [s5] ++ s5.anisoSteps scaling angle ++
  let s6 := s5.reAniso scaling angle
  match makeVariogramParameterList name pArg with
  | .error _ => []
  | .ok vp =>
  match initializeVariogramModel env s6.pts s6.Z name vp f u.nlags u.weight s6.coordinatesType with
  | .error _ => []
  | .ok (lags, ps) =>
  let s7 := { s6 with lags := lags }
  let s8 := { s7 with params := ps, paramsInt := intParams pArg ps u.paramsAllInt }
  [s7, s8] ++
  match findStatistics s8.pts s8.Z f ps s8.coordinatesType s8.pseudoInv with
  | .error _ => []
  | .ok st => [{ s8 with stats := some st }]

/-- `_exec_loop` with the state seen in iteration `j` being `seen (j + 3)`; ok.py:685-720 -/
def OK.execLoopSeen {n : ℕ} (seen : ℕ → OK n) (a : Matrix (Fin (n + 1)) (Fin (n + 1)) ℝ)
    (bdAll : List (Fin n → ℝ)) (mask : List Bool) : Py (List (ℝ × ℝ)) := do
  let a_inv ← invertPython (seen 2).pseudoInv (seen 2).pseudoInvType a
  ((bdAll.zip mask).zipIdx).mapM fun p => if p.1.2 then pure (0, 0) else (seen (p.2 + 3)).loopBody a_inv p.1.1

/-- `_exec_loop_moving_window` with the state seen in iteration `j` being `seen (j + 3)`; ok.py:722-758 -/
def OK.execLoopMovingWindowSeen {n : ℕ} (seen : ℕ → OK n) (aAll : Matrix (Fin (n + 1)) (Fin (n + 1)) ℝ)
    (ws : List (Window n)) (mask : List Bool) : Py (List (ℝ × ℝ)) :=
  ((ws.zip mask).zipIdx).mapM fun p => if p.1.2 then pure (0, 0) else (seen (p.2 + 3)).windowBody aAll p.1.1

/-- The moving-window branch; ok.py:922-976.  Windows larger than the data set read `seen 2` only. -/
def OK.movingWindowSeen {n : ℕ} (env : Env) (seen : ℕ → OK n) (a : Matrix (Fin (n + 1)) (Fin (n + 1)) ℝ)
    (qs : List (Fin 2 → ℝ)) (mask : List Bool) (backend : String) (k : ℕ) : Py (List (ℝ × ℝ)) :=
  if backend = "loop" ∧ k ≤ n then OK.execLoopMovingWindowSeen seen a (qs.map ((seen 2).neighbours env k)) mask
  else (seen 2).movingWindow env a qs mask backend k

/-- The branch without moving window; ok.py:977-1010 -/
def OK.globalKrigeSeen {n : ℕ} (seen : ℕ → OK n) (a : Matrix (Fin (n + 1)) (Fin (n + 1)) ℝ)
    (qs : List (Fin 2 → ℝ)) (mask : List Bool) (backend : String) : Py (List (ℝ × ℝ)) :=
  if backend = "loop" then OK.execLoopSeen seen a (qs.map fun q => (seen 2).queryDist q) mask
  else (seen 2).globalKrige a qs mask backend

/-- `execute(...)`; ok.py:760-1020, with the state of the object at each moment of reading: `seen 0` when the kriging
matrix is built (ok.py:836), `seen 1` when the query points are adjusted (ok.py:878-892), `seen 2` for the distances, the
inversion and the parameters handed to the C loops (ok.py:909-1010), `seen (j + 3)` in iteration `j` of the Python loops. -/
def OK.executeSeen {n : ℕ} (env : Env) (seen : ℕ → OK n) (args : ExecArgs) : Py ExecResult := do
  if args.style ∉ ["grid", "masked", "points"] then throw .valueError
  if let some k := args.nClosest then
    if k ≤ 1 then throw .valueError
  let a ← (seen 0).getKrigingMatrix
  let (pts, mask) ← queryPoints args
  let qs ← (seen 1).adjustQuery args pts
  let backend := if args.backend = "C" ∧ ¬ env.cAvailable then "loop" else args.backend
  let res ← match args.nClosest with
    | some k => OK.movingWindowSeen env seen a qs mask backend k.toNat
    | none => OK.globalKrigeSeen seen a qs mask backend
  return { shape := resultShape args
           z := applyMask args.style mask (res.map Prod.fst)
           ss := applyMask args.style mask (res.map Prod.snd) }

end
end PyKrige
