import Verif.Model.Inexact
import Verif.Model.UK

/-!
# UniversalKriging with inexact linear algebra

The functions of `Model/UK.lean` that use linear algebra, with the routines of `Model/Inexact.lean`.
-/

namespace PyKrige
noncomputable section
open Matrix

/-- `_exec_vector(...)`; uk.py:922-1009.  The external drift is evaluated at *all* points, masked or
not. -/
def UK.execVectorWith {n : ℕ} (ar : Arith) (s : UK n)
    (a : Matrix (Fin (s.nWithDrifts + 1)) (Fin (s.nWithDrifts + 1)) ℝ)
    (qs : List (UKQuery n)) (spec : List (List ℝ)) : Py (List (ℝ × ℝ) × Bool) := do
  let a_inv ← ar.invertPython s.pseudoInv s.pseudoInvType a
  let zeroValue : Prop := ∃ q ∈ qs, ∃ k, |q.bd k| ≤ eps
  let γ ← s.variogramFunction s.params
  let exts ← qs.mapM s.extAt
  let b := List.zipWith (fun q zext => s.vectorRow γ zeroValue spec zext q) qs exts
  return (b.map fun b =>
    let x := ar.mulVec a_inv b.1
    (ar.dot (fun k : Fin n => x (k.castLE s.le_nWithDrifts)) s.Z, ar.dot x (fun k => -b.1 k)),
    b.any Prod.snd)

open Classical in
/-- Body of the loop of `_exec_loop` at an unmasked point; uk.py:1029-1086.  Note
`spec_vals.flatten()[i]` with the *row* index `i` (uk.py:1070). -/
def UK.loopBodyWith {n : ℕ} (ar : Arith) (s : UK n)
    (a_inv : Matrix (Fin (s.nWithDrifts + 1)) (Fin (s.nWithDrifts + 1)) ℝ)
    (spec : List (List ℝ)) (q : UKQuery n) : Py ((ℝ × ℝ) × Bool) := do
  let zeroValue : Prop := ∃ k, |q.bd k| ≤ eps
  let γ ← s.variogramFunction s.params
  let b : Fin (s.nWithDrifts + 1) → ℝ := fun _ => 0
  let b := setHead b n fun k => -γ (q.bd k)
  let b := if zeroValue ∧ s.exactValues = true then setWhere b n (fun k => |q.bd k| ≤ eps) 0 else b
  let st ← s.pushRhsLoop spec q (b, n)
  let b := setAt st.1 s.nWithDrifts 1
  let x := ar.mulVec a_inv b
  return ((ar.dot (fun k : Fin n => x (k.castLE s.le_nWithDrifts)) s.Z, ar.dot x (fun k => -b k)),
    decide (st.2 ≠ s.nWithDrifts))

/-- `_exec_loop(...)`; uk.py:1011-1088 -/
def UK.execLoopWith {n : ℕ} (ar : Arith) (s : UK n)
    (a : Matrix (Fin (s.nWithDrifts + 1)) (Fin (s.nWithDrifts + 1)) ℝ)
    (qs : List (UKQuery n)) (mask : List Bool) (spec : List (List ℝ)) :
    Py (List (ℝ × ℝ) × Bool) := do
  let a_inv ← ar.invertPython s.pseudoInv s.pseudoInvType a
  let l ← (qs.zip mask).mapM fun p =>
    if p.2 then pure ((0, 0), false) else s.loopBodyWith ar a_inv spec p.1
  return (l.map Prod.fst, l.any Prod.snd)

/-- `execute(...)` together with "was one of the 'Kriging may fail' warnings issued?";
uk.py:1090-1328 -/
def UK.executeWWith {n : ℕ} (ar : Arith) (s : UK n) (args : UKExecArgs) : Py (ExecResult × Bool) := do
  if args.toExec.style ∉ ["grid", "masked", "points"] then throw .valueError
  let (a, wa) ← s.getKrigingMatrix
  let (pts, mask) ← queryPoints args.toExec
  let spec ← s.specGrids args
  if args.toExec.xpoints.isInt && args.toExec.ypoints.isInt then throw .castingError
  let qs := s.queries pts
  let (res, wb) ←
    if args.toExec.backend = "vectorized" then s.execVectorWith ar a qs spec
    else if args.toExec.backend = "loop" then s.execLoopWith ar a qs mask spec
    else throw .valueError
  return ({ shape := resultShape args.toExec
            z := applyMask args.toExec.style mask (res.map Prod.fst)
            ss := applyMask args.toExec.style mask (res.map Prod.snd) }, wa || wb)

/-- `execute(...)`; uk.py:1090-1328 -/
def UK.executeWith {n : ℕ} (ar : Arith) (s : UK n) (args : UKExecArgs) : Py ExecResult := Prod.fst <$> s.executeWWith ar args

end
end PyKrige
