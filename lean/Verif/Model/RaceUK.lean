import Verif.Model.UK

/-!
# `update_variogram_model` while `execute` is running: `UniversalKriging`

As `Model/Race.lean`, with the same simplifications. `update_variogram_model` does not assign the drift attributes, so that the
states seen differ in the attributes of `UK.Assigned` only.
-/

namespace PyKrige
noncomputable section
open Matrix

/-- The attributes `update_variogram_model` assigns; uk.py:675-784 -/
structure UK.Assigned (n : ℕ) where
  variogramModel : ModelArg
  model : Option GsModel
  variogramFunction : VFun
  functionName : String
  anisotropyScaling : ℝ
  anisotropyAngle : ℝ
  X_ADJUSTED : Fin n → ℝ
  Y_ADJUSTED : Fin n → ℝ
  lags : List (ℝ × ℝ)
  params : List ℝ
  stats : Option Stats

/-- The object with these attributes; uk.py:675-784 -/
def UK.set {n : ℕ} (s : UK n) (v : UK.Assigned n) : UK n :=
  { s with
    variogramModel := v.variogramModel
    model := v.model
    variogramFunction := v.variogramFunction
    functionName := v.functionName
    anisotropyScaling := v.anisotropyScaling
    anisotropyAngle := v.anisotropyAngle
    X_ADJUSTED := v.X_ADJUSTED
    Y_ADJUSTED := v.Y_ADJUSTED
    lags := v.lags
    params := v.params
    stats := v.stats }

/-- The attributes `update_variogram_model` assigns, of an object; uk.py:675-784 -/
def UK.assigned {n : ℕ} (s : UK n) : UK.Assigned n :=
  { variogramModel := s.variogramModel
    model := s.model
    variogramFunction := s.variogramFunction
    functionName := s.functionName
    anisotropyScaling := s.anisotropyScaling
    anisotropyAngle := s.anisotropyAngle
    X_ADJUSTED := s.X_ADJUSTED
    Y_ADJUSTED := s.Y_ADJUSTED
    lags := s.lags
    params := s.params
    stats := s.stats }

open Classical in
/-- The states after each assignment of the anisotropy part of `update_variogram_model`; uk.py:710-723. -/
def UK.anisoSteps {n : ℕ} (s : UK n) (scaling angle : ℝ) : List (UK n) :=
  if scaling ≠ s.anisotropyScaling ∨ angle ≠ s.anisotropyAngle then
    let adj := adjustData2 s.X_ORIG s.Y_ORIG s.XCENTER s.YCENTER scaling angle
    let s1 := { s with anisotropyScaling := scaling }
    let s2 := { s1 with anisotropyAngle := angle }
    let s3 := { s2 with X_ADJUSTED := fun i => adj i 0 }
    let s4 := { s3 with Y_ADJUSTED := fun i => adj i 1 }
    [s1, s2, s3, s4]
  else []

/-- The states of the object before, between and after the assignments of `update_variogram_model`; uk.py:675-784. -/
def UK.updateSteps {n : ℕ} (env : Env) (s : UK n) (u : OKUpdate) : List (UK n) :=
  let s1 := { s with variogramModel := u.variogramModel }
  let s2 := { s1 with model := none }
  [s, s1, s2] ++
  match UK.resolveModel env u.variogramModel u.variogramFunction u.params
      u.anisotropyScaling u.anisotropyAngle with
  | .error _ =>
    match u.variogramModel with
    | .gstools m => [{ s2 with model := some m }]
    | .name _ => []
  | .ok (name, model, fArg, pArg, scaling, angle) =>
  let s3 := { s2 with model := model }
  let s4 := { s3 with variogramModel := .name name }
  [s3, s4] ++
  match chooseFunction name fArg with
  | .error _ => []
  | .ok (f, fname) =>
  let s5 := { s4 with variogramFunction := f, functionName := fname }
  [s5] ++ s5.anisoSteps scaling angle ++
  let s6 := s5.reAniso scaling angle
  match makeVariogramParameterList name pArg with
  | .error _ => []
  | .ok vp =>
  match initializeVariogramModel env s6.pts s6.Z name vp f u.nlags u.weight "euclidean" with
  | .error _ => []
  | .ok (lags, ps) =>
  let s7 := { s6 with lags := lags }
  let s8 := { s7 with params := ps }
  [s7, s8] ++
  match findStatistics s8.pts s8.Z f ps "euclidean" s8.pseudoInv with
  | .error _ => []
  | .ok st => [{ s8 with stats := some st }]

/-- `_exec_loop` with the attributes seen in iteration `j` being `seen (j + 3)`; uk.py:1011-1088 -/
def UK.execLoopSeen {n : ℕ} (s : UK n) (seen : ℕ → UK.Assigned n)
    (a : Matrix (Fin (s.nWithDrifts + 1)) (Fin (s.nWithDrifts + 1)) ℝ)
    (qs : List (UKQuery n)) (mask : List Bool) (spec : List (List ℝ)) : Py (List (ℝ × ℝ) × Bool) := do
  let a_inv ← invertPython s.pseudoInv s.pseudoInvType a
  let l ← ((qs.zip mask).zipIdx).mapM fun p =>
    if p.1.2 then pure ((0, 0), false) else (s.set (seen (p.2 + 3))).loopBody a_inv spec p.1.1
  return (l.map Prod.fst, l.any Prod.snd)

/-- The query points, adjusted with the attributes `seen 1`, with the distances to the data as `seen 2`; uk.py:1282-1299 -/
def UK.queriesSeen {n : ℕ} (s : UK n) (seen : ℕ → UK.Assigned n) (pts : List (ℝ × ℝ)) : List (UKQuery n) :=
  pts.zipIdx.map fun p =>
    { j := p.2, xo := p.1.1, yo := p.1.2, adj := (s.set (seen 1)).adjustPoint p.1
      bd := fun i => euclid ((s.set (seen 1)).adjustPoint p.1) ((s.set (seen 2)).pts i) }

/-- `execute(...)`; uk.py:1090-1328, with the attributes at each moment of reading: `seen 0` when the kriging matrix is built,
`seen 1` when the query points are adjusted, `seen 2` for the distances and the vectorized computation, `seen (j + 3)` in
iteration `j` of the loop. -/
def UK.executeWSeen {n : ℕ} (s : UK n) (seen : ℕ → UK.Assigned n) (args : UKExecArgs) : Py (ExecResult × Bool) := do
  if args.toExec.style ∉ ["grid", "masked", "points"] then throw .valueError
  let (a, wa) ← (s.set (seen 0)).getKrigingMatrix
  let (pts, mask) ← queryPoints args.toExec
  let spec ← s.specGrids args
  if args.toExec.xpoints.isInt && args.toExec.ypoints.isInt then throw .castingError
  let qs := s.queriesSeen seen pts
  let (res, wb) ←
    if args.toExec.backend = "vectorized" then (s.set (seen 2)).execVector a qs spec
    else if args.toExec.backend = "loop" then s.execLoopSeen seen a qs mask spec
    else throw .valueError
  return ({ shape := resultShape args.toExec
            z := applyMask args.toExec.style mask (res.map Prod.fst)
            ss := applyMask args.toExec.style mask (res.map Prod.snd) }, wa || wb)

/-- `execute(...)` without the warnings; uk.py:1090-1328 -/
def UK.executeSeen {n : ℕ} (s : UK n) (seen : ℕ → UK.Assigned n) (args : UKExecArgs) : Py ExecResult :=
  Prod.fst <$> s.executeWSeen seen args

end
end PyKrige
