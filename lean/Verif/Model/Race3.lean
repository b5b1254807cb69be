import Verif.Model.OK3D

/-!
# `update_variogram_model` while `execute` is running: `OrdinaryKriging3D`

As `Model/Race.lean`, with the same simplifications.
-/

namespace PyKrige
noncomputable section
open Matrix

open Classical in
/-- The states after each assignment of the anisotropy part of `update_variogram_model`; ok3d.py:463-486. -/
def OK3D.anisoSteps {n : ℕ} (s : OK3D n) (an : Aniso3) : List (OK3D n) :=
  if an.scalingY ≠ s.aniso.scalingY ∨ an.scalingZ ≠ s.aniso.scalingZ ∨
      an.angleX ≠ s.aniso.angleX ∨ an.angleY ≠ s.aniso.angleY ∨ an.angleZ ≠ s.aniso.angleZ then
    let adj := fun i =>
      adjustPoint3 s.XCENTER s.YCENTER s.ZCENTER an (s.X_ORIG i) (s.Y_ORIG i) (s.Z_ORIG i)
    let s1 := { s with aniso := { s.aniso with scalingY := an.scalingY } }
    let s2 := { s1 with aniso := { s1.aniso with scalingZ := an.scalingZ } }
    let s3 := { s2 with aniso := { s2.aniso with angleX := an.angleX } }
    let s4 := { s3 with aniso := { s3.aniso with angleY := an.angleY } }
    let s5 := { s4 with aniso := { s4.aniso with angleZ := an.angleZ } }
    let s6 := { s5 with X_ADJUSTED := fun i => adj i 0 }
    let s7 := { s6 with Y_ADJUSTED := fun i => adj i 1 }
    let s8 := { s7 with Z_ADJUSTED := fun i => adj i 2 }
    [s1, s2, s3, s4, s5, s6, s7, s8]
  else []

/-- The states of the object before, between and after the assignments of `update_variogram_model`; ok3d.py:429-546. -/
def OK3D.updateSteps {n : ℕ} (env : Env) (s : OK3D n) (u : Update3D) : List (OK3D n) :=
  let s1 := { s with variogramModel := u.variogramModel }
  let s2 := { s1 with model := none }
  [s, s1, s2] ++
  match OK3D.resolveModel env u.variogramModel u.variogramFunction u.params u.aniso with
  | .error _ =>
    match u.variogramModel with
    | .gstools m => [{ s2 with model := some m }]
    | .name _ => []
  | .ok (name, model, fArg, pArg, an) =>
  let s3 := { s2 with model := model }
  let s4 := { s3 with variogramModel := .name name }
  [s3, s4] ++
  match chooseFunction name fArg with
  | .error _ => []
  | .ok (f, fname) =>
  let s5 := { s4 with variogramFunction := f, functionName := fname }
  [s5] ++ s5.anisoSteps an ++
  let s6 := s5.reAniso an
  match makeVariogramParameterList name pArg with
  | .error _ => []
  | .ok vp =>
  match initializeVariogramModel env s6.pts s6.VALUES name vp f u.nlags u.weight "euclidean" with
  | .error _ => []
  | .ok (lags, ps) =>
  let s7 := { s6 with lags := lags }
  let s8 := { s7 with params := ps }
  [s7, s8] ++
  match findStatistics s8.pts s8.VALUES f ps "euclidean" s8.pseudoInv with
  | .error _ => []
  | .ok st => [{ s8 with stats := some st }]

/-- `_exec_loop` with the state seen in iteration `j` being `seen (j + 3)`; ok3d.py:659-694 -/
def OK3D.execLoopSeen {n : ℕ} (seen : ℕ → OK3D n) (a : Matrix (Fin (n + 1)) (Fin (n + 1)) ℝ)
    (bdAll : List (Fin n → ℝ)) (mask : List Bool) : Py (List (ℝ × ℝ)) := do
  let a_inv ← invertPython (seen 2).pseudoInv (seen 2).pseudoInvType a
  ((bdAll.zip mask).zipIdx).mapM fun p => if p.1.2 then pure (0, 0) else (seen (p.2 + 3)).loopBody a_inv p.1.1

/-- `_exec_loop_moving_window` with the state seen in iteration `j` being `seen (j + 3)`; ok3d.py:696-733 -/
def OK3D.execLoopMovingWindowSeen {n : ℕ} (seen : ℕ → OK3D n) (aAll : Matrix (Fin (n + 1)) (Fin (n + 1)) ℝ)
    (ws : List (Window n)) (mask : List Bool) : Py (List (ℝ × ℝ)) :=
  ((ws.zip mask).zipIdx).mapM fun p => if p.1.2 then pure (0, 0) else (seen (p.2 + 3)).windowBody aAll p.1.1

/-- The moving-window branch; ok3d.py:904-916.  Windows larger than the data set read `seen 2` only. -/
def OK3D.movingWindowSeen {n : ℕ} (env : Env) (seen : ℕ → OK3D n) (a : Matrix (Fin (n + 1)) (Fin (n + 1)) ℝ)
    (qs : List (Fin 3 → ℝ)) (mask : List Bool) (backend : String) (k : ℤ) : Py (List (ℝ × ℝ)) :=
  if backend = "loop" ∧ 1 < k ∧ k ≤ n then
    OK3D.execLoopMovingWindowSeen seen a (qs.map ((seen 2).neighbours env k.toNat)) mask
  else (seen 2).movingWindow env a qs mask backend k

/-- The branch without moving window; ok3d.py:917-927 -/
def OK3D.globalKrigeSeen {n : ℕ} (seen : ℕ → OK3D n) (a : Matrix (Fin (n + 1)) (Fin (n + 1)) ℝ)
    (qs : List (Fin 3 → ℝ)) (mask : List Bool) (backend : String) : Py (List (ℝ × ℝ)) :=
  if backend = "loop" then OK3D.execLoopSeen seen a (qs.map fun q => (seen 2).queryDist q) mask
  else (seen 2).globalKrige a qs mask backend

/-- `execute(...)`; ok3d.py:735-937, with the state of the object at each moment of reading: `seen 0` when the kriging
matrix is built, `seen 1` when the query points are adjusted, `seen 2` for the distances, the inversion and the vectorized
computation, `seen (j + 3)` in iteration `j` of the Python loops. -/
def OK3D.executeSeen {n : ℕ} (env : Env) (seen : ℕ → OK3D n) (args : ExecArgs3) : Py ExecResult := do
  if args.style ∉ ["grid", "masked", "points"] then throw .valueError
  let a ← (seen 0).getKrigingMatrix
  let (pts, mask) ← queryPoints3 args
  let qs ← (seen 1).adjustQuery args pts
  let res ← match args.nClosest with
    | some k => OK3D.movingWindowSeen env seen a qs mask args.backend k
    | none => OK3D.globalKrigeSeen seen a qs mask args.backend
  return { shape := resultShape3 args
           z := applyMask args.style mask (res.map Prod.fst)
           ss := applyMask args.style mask (res.map Prod.snd) }

end
end PyKrige
