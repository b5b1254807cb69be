import Verif.Model.UK3D

/-!
# `update_variogram_model` while `execute` is running: `UniversalKriging3D`

As `Model/Race.lean`, with the same simplifications. `update_variogram_model` does not assign the drift attributes, so that the
states seen differ in the attributes of `UK3D.Assigned` only.
-/

namespace PyKrige
noncomputable section
open Matrix

/-- The attributes `update_variogram_model` assigns; uk3d.py:514-632 -/
structure UK3D.Assigned (n : ℕ) where
  variogramModel : ModelArg
  model : Option GsModel
  variogramFunction : VFun
  functionName : String
  aniso : Aniso3
  X_ADJUSTED : Fin n → ℝ
  Y_ADJUSTED : Fin n → ℝ
  Z_ADJUSTED : Fin n → ℝ
  lags : List (ℝ × ℝ)
  params : List ℝ
  stats : Option Stats

/-- The object with these attributes; uk3d.py:514-632 -/
def UK3D.set {n : ℕ} (s : UK3D n) (v : UK3D.Assigned n) : UK3D n :=
  { s with
    variogramModel := v.variogramModel
    model := v.model
    variogramFunction := v.variogramFunction
    functionName := v.functionName
    aniso := v.aniso
    X_ADJUSTED := v.X_ADJUSTED
    Y_ADJUSTED := v.Y_ADJUSTED
    Z_ADJUSTED := v.Z_ADJUSTED
    lags := v.lags
    params := v.params
    stats := v.stats }

/-- The attributes `update_variogram_model` assigns, of an object; uk3d.py:514-632 -/
def UK3D.assigned {n : ℕ} (s : UK3D n) : UK3D.Assigned n :=
  { variogramModel := s.variogramModel
    model := s.model
    variogramFunction := s.variogramFunction
    functionName := s.functionName
    aniso := s.aniso
    X_ADJUSTED := s.X_ADJUSTED
    Y_ADJUSTED := s.Y_ADJUSTED
    Z_ADJUSTED := s.Z_ADJUSTED
    lags := s.lags
    params := s.params
    stats := s.stats }

open Classical in
/-- The states after each assignment of the anisotropy part of `update_variogram_model`; uk3d.py:548-571. -/
def UK3D.anisoSteps {n : ℕ} (s : UK3D n) (an : Aniso3) : List (UK3D n) :=
  if an.scalingY ≠ s.aniso.scalingY ∨ an.scalingZ ≠ s.aniso.scalingZ ∨
      an.angleX ≠ s.aniso.angleX ∨ an.angleY ≠ s.aniso.angleY ∨ an.angleZ ≠ s.aniso.angleZ then
    let adj := fun i =>
      adjustPoint3 s.XCENTER s.YCENTER s.ZCENTER an (s.X_ORIG i) (s.Y_ORIG i) (s.Z_ORIG i)
    let s1 := { s with aniso := { s.aniso with scalingY := an.scalingY } }
    let s2 := { s1 with aniso := { s1.aniso with scalingZ := an.scalingZ } }
    let s3 := { s2 with aniso := { s2.aniso with angleX := an.angleX } }
    let s4 := { s3 with aniso := { s3.aniso with angleY := an.angleY } }
    let s5 := { s4 with aniso := { s4.aniso with angleZ := an.angleZ } }
    let s6 := { s5 with X_ADJUSTED := fun i => adj i 0 }
    let s7 := { s6 with Y_ADJUSTED := fun i => adj i 1 }
    let s8 := { s7 with Z_ADJUSTED := fun i => adj i 2 }
    [s1, s2, s3, s4, s5, s6, s7, s8]
  else []

/-- The states of the object before, between and after the assignments of `update_variogram_model`; uk3d.py:514-632. -/
def UK3D.updateSteps {n : ℕ} (env : Env) (s : UK3D n) (u : Update3D) : List (UK3D n) :=
  let s1 := { s with variogramModel := u.variogramModel }
  let s2 := { s1 with model := none }
  [s, s1, s2] ++
  match OK3D.resolveModel env u.variogramModel u.variogramFunction u.params u.aniso with
  | .error _ =>
    match u.variogramModel with
    | .gstools m => [{ s2 with model := some m }]
    | .name _ => []
  | .ok (name, model, fArg, pArg, an) =>
  let s3 := { s2 with model := model }
  let s4 := { s3 with variogramModel := .name name }
  [s3, s4] ++
  match chooseFunction name fArg with
  | .error _ => []
  | .ok (f, fname) =>
  let s5 := { s4 with variogramFunction := f, functionName := fname }
  [s5] ++ s5.anisoSteps an ++
  let s6 := s5.reAniso an
  match makeVariogramParameterList name pArg with
  | .error _ => []
  | .ok vp =>
  match initializeVariogramModel env s6.pts s6.VALUES name vp f u.nlags u.weight "euclidean" with
  | .error _ => []
  | .ok (lags, ps) =>
  let s7 := { s6 with lags := lags }
  let s8 := { s7 with params := ps }
  [s7, s8] ++
  match findStatistics s8.pts s8.VALUES f ps "euclidean" s8.pseudoInv with
  | .error _ => []
  | .ok st => [{ s8 with stats := some st }]

/-- `_exec_loop` with the attributes seen in iteration `j` being `seen (j + 3)`; uk3d.py:813-876 -/
def UK3D.execLoopSeen {n : ℕ} (s : UK3D n) (seen : ℕ → UK3D.Assigned n)
    (a : Matrix (Fin (s.nWithDrifts + 1)) (Fin (s.nWithDrifts + 1)) ℝ)
    (qs : List (UK3Query n)) (mask : List Bool) (spec : List (List ℝ)) : Py (List (ℝ × ℝ) × Bool) := do
  let a_inv ← invertPython s.pseudoInv s.pseudoInvType a
  let l ← ((qs.zip mask).zipIdx).mapM fun p =>
    if p.1.2 then pure ((0, 0), false) else (s.set (seen (p.2 + 3))).loopBody a_inv spec p.1.1
  return (l.map Prod.fst, l.any Prod.snd)

/-- The query points, adjusted with the attributes `seen 1`, with the distances to the data as `seen 2`; uk3d.py:1099-1120 -/
def UK3D.queriesSeen {n : ℕ} (s : UK3D n) (seen : ℕ → UK3D.Assigned n) (pts : List (ℝ × ℝ × ℝ)) : List (UK3Query n) :=
  pts.zipIdx.map fun p =>
    { j := p.2, xyz := zyx ((s.set (seen 1)).adjustPoint p.1)
      bd := fun i => euclid (zyx ((s.set (seen 1)).adjustPoint p.1)) (zyx ((s.set (seen 2)).pts i)) }

/-- `execute(...)`; uk3d.py:877-1146, with the attributes at each moment of reading: `seen 0` when the kriging matrix is built,
`seen 1` when the query points are adjusted, `seen 2` for the distances and the vectorized computation, `seen (j + 3)` in
iteration `j` of the loop. -/
def UK3D.executeWSeen {n : ℕ} (s : UK3D n) (seen : ℕ → UK3D.Assigned n) (args : UK3DExecArgs) : Py (ExecResult × Bool) := do
  if args.toExec.style ∉ ["grid", "masked", "points"] then throw .valueError
  let (a, wa) ← (s.set (seen 0)).getKrigingMatrix
  let (pts, mask) ← queryPoints3 args.toExec
  let spec ← s.specGrids args
  if args.toExec.xpoints.isInt && args.toExec.ypoints.isInt && args.toExec.zpoints.isInt then throw .castingError
  let qs := s.queriesSeen seen pts
  let (res, wb) ←
    if args.toExec.backend = "vectorized" then (s.set (seen 2)).execVector a qs spec
    else if args.toExec.backend = "loop" then s.execLoopSeen seen a qs mask spec
    else throw .valueError
  return ({ shape := resultShape3 args.toExec
            z := applyMask args.toExec.style mask (res.map Prod.fst)
            ss := applyMask args.toExec.style mask (res.map Prod.snd) }, wa || wb)

/-- `execute(...)` without the warnings; uk3d.py:877-1146 -/
def UK3D.executeSeen {n : ℕ} (s : UK3D n) (seen : ℕ → UK3D.Assigned n) (args : UK3DExecArgs) : Py ExecResult :=
  Prod.fst <$> s.executeWSeen seen args

end
end PyKrige
