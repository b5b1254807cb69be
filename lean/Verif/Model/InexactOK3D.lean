import Verif.Model.Inexact
import Verif.Model.OK3D

/-!
# OrdinaryKriging3D with inexact linear algebra

The functions of `Model/OK3D.lean` that use linear algebra, with the routines of `Model/Inexact.lean`.
-/

namespace PyKrige
noncomputable section
open Matrix

open Classical in
/-- `_exec_vector(a, bd, mask)`; ok3d.py:624-657 -/
def OK3D.execVectorWith {n : ℕ} (ar : Arith) (s : OK3D n) (a : Matrix (Fin (n + 1)) (Fin (n + 1)) ℝ)
    (bd : List (Fin n → ℝ)) : Py (List (ℝ × ℝ)) := do
  let a_inv ← ar.invertPython s.pseudoInv s.pseudoInvType a
  let zeroValue : Prop := ∃ row ∈ bd, ∃ k, |row k| ≤ eps
  let γ ← s.variogramFunction s.params
  let b : List (Fin (n + 1) → ℝ) := bd.map fun row =>
    let b : Fin (n + 1) → ℝ := fun _ => 0
    let b := setHead b n fun k => -γ (row k)
    let b := if zeroValue ∧ s.exactValues = true then setWhere b n (fun k => |row k| ≤ eps) 0 else b
    setAt b n 1
  return b.map fun b =>
    let x := ar.mulVec a_inv b
    (ar.dot (fun k : Fin n => x k.castSucc) s.VALUES, ar.dot x (fun k => -b k))

open Classical in
/-- Body of the loop of `_exec_loop`; ok3d.py:673-693 -/
def OK3D.loopBodyWith {n : ℕ} (ar : Arith) (s : OK3D n) (a_inv : Matrix (Fin (n + 1)) (Fin (n + 1)) ℝ)
    (bd : Fin n → ℝ) : Py (ℝ × ℝ) := do
  let zeroValue : Prop := ∃ k, |bd k| ≤ eps
  let γ ← s.variogramFunction s.params
  let b : Fin (n + 1) → ℝ := fun _ => 0
  let b := setHead b n fun k => -γ (bd k)
  let b := if zeroValue ∧ s.exactValues = true then setWhere b n (fun k => |bd k| ≤ eps) 0 else b
  let b := setAt b n 1
  let x := ar.mulVec a_inv b
  return (ar.dot (fun k : Fin n => x k.castSucc) s.VALUES, ar.dot x (fun k => -b k))

/-- `_exec_loop(a, bd_all, mask)`; ok3d.py:659-695 -/
def OK3D.execLoopWith {n : ℕ} (ar : Arith) (s : OK3D n) (a : Matrix (Fin (n + 1)) (Fin (n + 1)) ℝ)
    (bdAll : List (Fin n → ℝ)) (mask : List Bool) : Py (List (ℝ × ℝ)) := do
  let a_inv ← ar.invertPython s.pseudoInv s.pseudoInvType a
  (bdAll.zip mask).mapM fun p => if p.2 then pure (0, 0) else s.loopBodyWith ar a_inv p.1

open Classical in
/-- Body of the loop of `_exec_loop_moving_window`; ok3d.py:709-731 -/
def OK3D.windowBodyWith {n : ℕ} (ar : Arith) (s : OK3D n) (aAll : Matrix (Fin (n + 1)) (Fin (n + 1)) ℝ)
    (w : Window n) : Py (ℝ × ℝ) := do
  let k := w.sel.length
  let a : Matrix (Fin (k + 1)) (Fin (k + 1)) ℝ := aAll.submatrix w.selector w.selector
  let zeroValue : Prop := ∃ i, |w.bd i| ≤ eps
  let γ ← s.variogramFunction s.params
  let b : Fin (k + 1) → ℝ := fun _ => 0
  let b := setHead b k fun i => -γ (w.bd i)
  let b := if zeroValue ∧ s.exactValues = true then setWhere b k (fun i => |w.bd i| ≤ eps) 0 else b
  let b := setAt b k 1
  let x ← ar.solve a b
  return (ar.dot (fun i : Fin k => x i.castSucc) (fun i => s.VALUES (w.sel.get i)), -ar.dot x b)

/-- `_exec_loop_moving_window(a_all, bd_all, mask, bd_idx)`; ok3d.py:697-733 -/
def OK3D.execLoopMovingWindowWith {n : ℕ} (ar : Arith) (s : OK3D n) (aAll : Matrix (Fin (n + 1)) (Fin (n + 1)) ℝ)
    (ws : List (Window n)) (mask : List Bool) : Py (List (ℝ × ℝ)) :=
  (ws.zip mask).mapM fun p => if p.2 then pure (0, 0) else s.windowBodyWith ar aAll p.1

/-- Moving-window branch; ok3d.py:904-916.  `k ≤ 0` is refused by the KD-tree (`ValueError`); `k = 1`
makes it return one-dimensional arrays, so `bd_idx.shape[1]` is an `IndexError`.  The case `k > n` is kept
exact (simplification: C78 excludes it). -/
def OK3D.movingWindowWith {n : ℕ} (ar : Arith) (env : Env) (s : OK3D n) (a : Matrix (Fin (n + 1)) (Fin (n + 1)) ℝ)
    (qs : List (Fin 3 → ℝ)) (mask : List Bool) (backend : String) (k : ℤ) :
    Py (List (ℝ × ℝ)) :=
  if k ≤ 0 then .error .valueError
  else if backend = "loop" then
    if k = 1 then .error .indexError
    else if k ≤ n then s.execLoopMovingWindowWith ar a (qs.map (s.neighbours env k.toNat)) mask
    else s.execLoopBeyond env a qs mask k.toNat
  else .error .valueError

/-- Branch without moving window; ok3d.py:917-927 -/
def OK3D.globalKrigeWith {n : ℕ} (ar : Arith) (s : OK3D n) (a : Matrix (Fin (n + 1)) (Fin (n + 1)) ℝ)
    (qs : List (Fin 3 → ℝ)) (mask : List Bool) (backend : String) : Py (List (ℝ × ℝ)) :=
  let bd : List (Fin n → ℝ) := qs.map fun q => s.queryDist q
  if backend = "vectorized" then s.execVectorWith ar a bd
  else if backend = "loop" then s.execLoopWith ar a bd mask
  else .error .valueError

/-- `execute(...)`; ok3d.py:735-937 -/
def OK3D.executeWith {n : ℕ} (ar : Arith) (env : Env) (s : OK3D n) (args : ExecArgs3) : Py ExecResult := do
  if args.style ∉ ["grid", "masked", "points"] then throw .valueError
  let a ← s.getKrigingMatrix
  let (pts, mask) ← queryPoints3 args
  let qs ← s.adjustQuery args pts
  let res ← match args.nClosest with
    | some k => s.movingWindowWith ar env a qs mask args.backend k
    | none => s.globalKrigeWith ar a qs mask args.backend
  return { shape := resultShape3 args
           z := applyMask args.style mask (res.map Prod.fst)
           ss := applyMask args.style mask (res.map Prod.snd) }

end
end PyKrige
