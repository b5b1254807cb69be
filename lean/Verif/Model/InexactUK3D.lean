import Verif.Model.Inexact
import Verif.Model.UK3D

/-!
# UniversalKriging3D with inexact linear algebra

The functions of `Model/UK3D.lean` that use linear algebra, with the routines of `Model/Inexact.lean`.
-/

namespace PyKrige
noncomputable section
open Matrix

/-- `_exec_vector(...)`; uk3d.py:739-811 -/
def UK3D.execVectorWith {n : ℕ} (ar : Arith) (s : UK3D n)
    (a : Matrix (Fin (s.nWithDrifts + 1)) (Fin (s.nWithDrifts + 1)) ℝ)
    (qs : List (UK3Query n)) (spec : List (List ℝ)) : Py (List (ℝ × ℝ) × Bool) := do
  let a_inv ← ar.invertPython s.pseudoInv s.pseudoInvType a
  let zeroValue : Prop := ∃ q ∈ qs, ∃ k, |q.bd k| ≤ eps
  let γ ← s.variogramFunction s.params
  let b := qs.map fun q => s.vectorRow γ zeroValue spec q
  return (b.map fun b =>
    let x := ar.mulVec a_inv b.1
    (ar.dot (fun k : Fin n => x (k.castLE s.le_nWithDrifts)) s.VALUES, ar.dot x (fun k => -b.1 k)),
    b.any Prod.snd)

open Classical in
/-- Body of the loop of `_exec_loop`; uk3d.py:828-873 (`spec_vals.flatten()[i]` at line 857) -/
def UK3D.loopBodyWith {n : ℕ} (ar : Arith) (s : UK3D n)
    (a_inv : Matrix (Fin (s.nWithDrifts + 1)) (Fin (s.nWithDrifts + 1)) ℝ)
    (spec : List (List ℝ)) (q : UK3Query n) : Py ((ℝ × ℝ) × Bool) := do
  let zeroValue : Prop := ∃ k, |q.bd k| ≤ eps
  let γ ← s.variogramFunction s.params
  let b : Fin (s.nWithDrifts + 1) → ℝ := fun _ => 0
  let b := setHead b n fun k => -γ (q.bd k)
  let b := if zeroValue ∧ s.exactValues = true then setWhere b n (fun k => |q.bd k| ≤ eps) 0 else b
  let st ← s.pushRhsLoop spec q (b, n)
  let b := setAt st.1 s.nWithDrifts 1
  let x := ar.mulVec a_inv b
  return ((ar.dot (fun k : Fin n => x (k.castLE s.le_nWithDrifts)) s.VALUES, ar.dot x (fun k => -b k)),
    decide (st.2 ≠ s.nWithDrifts))

/-- `_exec_loop(...)`; uk3d.py:813-875 -/
def UK3D.execLoopWith {n : ℕ} (ar : Arith) (s : UK3D n)
    (a : Matrix (Fin (s.nWithDrifts + 1)) (Fin (s.nWithDrifts + 1)) ℝ)
    (qs : List (UK3Query n)) (mask : List Bool) (spec : List (List ℝ)) :
    Py (List (ℝ × ℝ) × Bool) := do
  let a_inv ← ar.invertPython s.pseudoInv s.pseudoInvType a
  let l ← (qs.zip mask).mapM fun p =>
    if p.2 then pure ((0, 0), false) else s.loopBodyWith ar a_inv spec p.1
  return (l.map Prod.fst, l.any Prod.snd)

/-- `execute(...)` with the warning flag; uk3d.py:877-1146.  (With style 'points' a length mismatch
that escapes the explicit check is raised by `np.vstack` only after the specified-drift checks; both
are `ValueError`s or the drift check's `TypeError`, so the order is immaterial for what is returned.) -/
def UK3D.executeWWith {n : ℕ} (ar : Arith) (s : UK3D n) (args : UK3DExecArgs) : Py (ExecResult × Bool) := do
  if args.toExec.style ∉ ["grid", "masked", "points"] then throw .valueError
  let (a, wa) ← s.getKrigingMatrix
  let (pts, mask) ← queryPoints3 args.toExec
  let spec ← s.specGrids args
  if args.toExec.xpoints.isInt && args.toExec.ypoints.isInt && args.toExec.zpoints.isInt then
    throw .castingError
  let qs := s.queries pts
  let (res, wb) ←
    if args.toExec.backend = "vectorized" then s.execVectorWith ar a qs spec
    else if args.toExec.backend = "loop" then s.execLoopWith ar a qs mask spec
    else throw .valueError
  return ({ shape := resultShape3 args.toExec
            z := applyMask args.toExec.style mask (res.map Prod.fst)
            ss := applyMask args.toExec.style mask (res.map Prod.snd) }, wa || wb)

/-- `execute(...)`; uk3d.py:877-1146 -/
def UK3D.executeWith {n : ℕ} (ar : Arith) (s : UK3D n) (args : UK3DExecArgs) : Py ExecResult :=
  Prod.fst <$> s.executeWWith ar args

end
end PyKrige
