import Verif.Model.OK

/-!
# Inexact linear algebra

`execute` with the inverses, pseudo-inverses, solutions, matrix products and sums of floating point instead of exact ones.
`Arith` is any such set of routines. The kriging matrix and the right-hand sides are exact.
-/

namespace PyKrige
noncomputable section
open Matrix

/-- The linear algebra routines of numpy, scipy and LAPACK as they compute, with whatever errors; `dot` is an inner product
(`np.sum(x * z)`, `np.dot`, the loops of lib/cok.pyx). -/
structure Arith where
  inv : {k : ℕ} → Matrix (Fin k) (Fin k) ℝ → Py (Matrix (Fin k) (Fin k) ℝ)
  pinv : {k : ℕ} → Matrix (Fin k) (Fin k) ℝ → Py (Matrix (Fin k) (Fin k) ℝ)
  pinvh : {k : ℕ} → Matrix (Fin k) (Fin k) ℝ → Py (Matrix (Fin k) (Fin k) ℝ)
  solve : {k : ℕ} → Matrix (Fin k) (Fin k) ℝ → (Fin k → ℝ) → Py (Fin k → ℝ)
  dgesv : {k : ℕ} → Matrix (Fin k) (Fin k) ℝ → (Fin k → ℝ) → Py (Fin k → ℝ)
  dot : {k : ℕ} → (Fin k → ℝ) → (Fin k → ℝ) → ℝ

/-- `np.dot(a_inv, b)`; ok.py:679, 716, lib/cok.pyx:78-84 -/
def Arith.mulVec (ar : Arith) {k : ℕ} (a : Matrix (Fin k) (Fin k) ℝ) (b : Fin k → ℝ) : Fin k → ℝ := fun i => ar.dot (a i) b

/-- `P_INV[type](a)` if `pseudo_inv` else `scipy.linalg.inv(a)`; ok.py:659-662, 693-696 (and the same lines of the other
classes). -/
def Arith.invertPython (ar : Arith) {N : ℕ} (pseudoInv : Bool) (pseudoInvType : String)
    (a : Matrix (Fin N) (Fin N) ℝ) : Py (Matrix (Fin N) (Fin N) ℝ) :=
  if pseudoInv then
    if pseudoInvType = "pinv" then ar.pinv a
    else if pseudoInvType = "pinvh" then ar.pinvh a
    else .error .keyError
  else ar.inv a

/-- Inversion in the C backend; lib/cok.pyx:44-54 -/
def Arith.invertC (ar : Arith) {N : ℕ} (pseudoInv : Bool) (pseudoInvType : String)
    (a : Matrix (Fin N) (Fin N) ℝ) : Py (Matrix (Fin N) (Fin N) ℝ) :=
  if pseudoInv then
    if pseudoInvType = "pinv" then ar.pinv a
    else if pseudoInvType = "pinv2" then .error .attributeError
    else if pseudoInvType = "pinvh" then ar.pinvh a
    else .error .valueError
  else ar.inv a

open Classical in
/-- `_exec_vector(a, bd, mask)`; ok.py:650-683.  `bd` is the list of rows of the array `bd`; the 3-D
array `b` is the list of its rows.  `b` becomes a masked array, which only hides results at masked
points (they are hidden again by `execute`), so the mask is not used here. -/
def OK.execVectorWith {n : ℕ} (ar : Arith) (s : OK n) (a : Matrix (Fin (n + 1)) (Fin (n + 1)) ℝ)
    (bd : List (Fin n → ℝ)) : Py (List (ℝ × ℝ)) := do
  let a_inv ← ar.invertPython s.pseudoInv s.pseudoInvType a
  let zeroValue : Prop := ∃ row ∈ bd, ∃ k, |row k| ≤ eps
  let γ ← s.variogramFunction s.params
  let b : List (Fin (n + 1) → ℝ) := bd.map fun row =>
    let b : Fin (n + 1) → ℝ := fun _ => 0
    let b := setHead b n fun k => -γ (row k)
    let b := if zeroValue ∧ s.exactValues = true then setWhere b n (fun k => |row k| ≤ eps) 0 else b
    setAt b n 1
  return b.map fun b =>
    let x := ar.mulVec a_inv b
    (ar.dot (fun k : Fin n => x k.castSucc) s.Z, ar.dot x (fun k => -b k))

open Classical in
/-- Body of the loop of `_exec_loop` at an unmasked point; ok.py:698-718 -/
def OK.loopBodyWith {n : ℕ} (ar : Arith) (s : OK n) (a_inv : Matrix (Fin (n + 1)) (Fin (n + 1)) ℝ)
    (bd : Fin n → ℝ) : Py (ℝ × ℝ) := do
  let zeroValue : Prop := ∃ k, |bd k| ≤ eps
  let γ ← s.variogramFunction s.params
  let b : Fin (n + 1) → ℝ := fun _ => 0
  let b := setHead b n fun k => -γ (bd k)
  let b := if zeroValue ∧ s.exactValues = true then setWhere b n (fun k => |bd k| ≤ eps) 0 else b
  let b := setAt b n 1
  let x := ar.mulVec a_inv b
  return (ar.dot (fun k : Fin n => x k.castSucc) s.Z, ar.dot x (fun k => -b k))

/-- `_exec_loop(a, bd_all, mask)`; ok.py:685-720.  The result arrays start as zeros and iteration
`j` (over `np.nonzero(~mask)[0]`) writes index `j` only. -/
def OK.execLoopWith {n : ℕ} (ar : Arith) (s : OK n) (a : Matrix (Fin (n + 1)) (Fin (n + 1)) ℝ)
    (bdAll : List (Fin n → ℝ)) (mask : List Bool) : Py (List (ℝ × ℝ)) := do
  let a_inv ← ar.invertPython s.pseudoInv s.pseudoInvType a
  (bdAll.zip mask).mapM fun p => if p.2 then pure (0, 0) else s.loopBodyWith ar a_inv p.1

open Classical in
/-- Body of the loop of `_exec_loop_moving_window` at an unmasked point; ok.py:732-756 -/
def OK.windowBodyWith {n : ℕ} (ar : Arith) (s : OK n) (aAll : Matrix (Fin (n + 1)) (Fin (n + 1)) ℝ)
    (w : Window n) : Py (ℝ × ℝ) := do
  let k := w.sel.length
  let a : Matrix (Fin (k + 1)) (Fin (k + 1)) ℝ := aAll.submatrix w.selector w.selector
  let zeroValue : Prop := ∃ i, |w.bd i| ≤ eps
  let γ ← s.variogramFunction s.params
  let b : Fin (k + 1) → ℝ := fun _ => 0
  let b := setHead b k fun i => -γ (w.bd i)
  let b := if zeroValue ∧ s.exactValues = true then setWhere b k (fun i => |w.bd i| ≤ eps) 0 else b
  let b := setAt b k 1
  let x ← ar.solve a b
  return (ar.dot (fun i : Fin k => x i.castSucc) (fun i => s.Z (w.sel.get i)), -ar.dot x b)

/-- `_exec_loop_moving_window(a_all, bd_all, mask, bd_idx)`; ok.py:722-758 -/
def OK.execLoopMovingWindowWith {n : ℕ} (ar : Arith) (s : OK n) (aAll : Matrix (Fin (n + 1)) (Fin (n + 1)) ℝ)
    (ws : List (Window n)) (mask : List Bool) : Py (List (ℝ × ℝ)) :=
  (ws.zip mask).mapM fun p => if p.2 then pure (0, 0) else s.windowBodyWith ar aAll p.1

/-- Body of the loop of `_c_exec_loop` at an unmasked point; lib/cok.pyx:60-94 -/
def OK.cLoopBodyWith {n : ℕ} (ar : Arith) (s : OK n) (γ : ℝ → ℝ) (a_inv : Matrix (Fin (n + 1)) (Fin (n + 1)) ℝ)
    (bd : Fin n → ℝ) : ℝ × ℝ :=
  let b : Fin (n + 1) → ℝ := fun _ => 0
  let b := setHead b n fun k => γ (bd k) * -1
  let b := setAt b n 1
  let b := if s.exactValues then checkBVect n bd b else b
  let x := ar.mulVec a_inv b
  (ar.dot (fun k : Fin n => x k.castSucc) s.Z, -ar.dot x b)

/-- `_c_exec_loop(a_all, bd_all, mask, n, pars)`; lib/cok.pyx:14-96 -/
def OK.cExecLoopWith {n : ℕ} (ar : Arith) (s : OK n) (a : Matrix (Fin (n + 1)) (Fin (n + 1)) ℝ)
    (bdAll : List (Fin n → ℝ)) (mask : List Bool) : Py (List (ℝ × ℝ)) := do
  let γ ← s.cVariogram
  let a_inv ← ar.invertC s.pseudoInv s.pseudoInvType a
  return (bdAll.zip mask).map fun p => if p.2 then (0, 0) else s.cLoopBodyWith ar γ a_inv p.1

/-- Body of the loop of `_c_exec_loop_moving_window` at an unmasked point; lib/cok.pyx:125-191 -/
def OK.cWindowBodyWith {n : ℕ} (ar : Arith) (s : OK n) (γ : ℝ → ℝ) (aAll : Matrix (Fin (n + 1)) (Fin (n + 1)) ℝ)
    (w : Window n) : Py (ℝ × ℝ) := do
  let k := w.sel.length
  let b : Fin (k + 1) → ℝ := fun _ => 0
  let b := setHead b k fun i => -γ (w.bd i)
  let b := setAt b k 1
  let b := if s.exactValues then checkBVect k w.bd b else b
  let x ← ar.dgesv (w.aSelection aAll) b
  return (ar.dot (fun i : Fin k => x i.castSucc) (fun i => s.Z (w.sel.get i)), -ar.dot x b)

/-- `_c_exec_loop_moving_window(...)`; lib/cok.pyx:98-193 -/
def OK.cExecLoopMovingWindowWith {n : ℕ} (ar : Arith) (s : OK n) (aAll : Matrix (Fin (n + 1)) (Fin (n + 1)) ℝ)
    (ws : List (Window n)) (mask : List Bool) : Py (List (ℝ × ℝ)) := do
  let γ ← s.cVariogram
  (ws.zip mask).mapM fun p => if p.2 then pure (0, 0) else s.cWindowBodyWith ar γ aAll p.1

/-- The moving-window branch; ok.py:922-976.  With `k > n` the KD-tree reports index `n` at distance
infinity for the missing neighbours: on the sphere `X_ADJUSTED[bd_idx]` raises `IndexError`; the C loop
reads and writes past the end of its arrays.  That case is kept exact (simplification: C78 excludes it). -/
def OK.movingWindowWith {n : ℕ} (ar : Arith) (env : Env) (s : OK n) (a : Matrix (Fin (n + 1)) (Fin (n + 1)) ℝ)
    (qs : List (Fin 2 → ℝ)) (mask : List Bool) (backend : String) (k : ℕ) :
    Py (List (ℝ × ℝ)) :=
  if k ≤ n then
    let ws := qs.map (s.neighbours env k)
    if backend = "loop" then s.execLoopMovingWindowWith ar a ws mask
    else if backend = "C" then s.cExecLoopMovingWindowWith ar a ws mask
    else .error .valueError
  else if s.coordinatesType = "geographic" then
    if qs = [] then
      if backend = "loop" then .ok [] else if backend = "C" then do
        let _ ← s.cVariogram
        .ok []
      else .error .valueError
    else .error .indexError
  else if backend = "loop" then s.execLoopBeyond env a qs mask k
  else if backend = "C" then do
    let _ ← s.cVariogram
    return (mask.zipIdx).map fun p => if p.1 then (0, 0) else env.outOfBounds p.2
  else .error .valueError

/-- The branch without moving window; ok.py:977-1010 -/
def OK.globalKrigeWith {n : ℕ} (ar : Arith) (s : OK n) (a : Matrix (Fin (n + 1)) (Fin (n + 1)) ℝ)
    (qs : List (Fin 2 → ℝ)) (mask : List Bool) (backend : String) : Py (List (ℝ × ℝ)) :=
  let bd : List (Fin n → ℝ) := qs.map fun q => s.queryDist q
  if backend = "vectorized" then s.execVectorWith ar a bd
  else if backend = "loop" then s.execLoopWith ar a bd mask
  else if backend = "C" then s.cExecLoopWith ar a bd mask
  else .error .valueError

/-- `execute(...)`; ok.py:760-1020 -/
def OK.executeWith {n : ℕ} (ar : Arith) (env : Env) (s : OK n) (args : ExecArgs) : Py ExecResult := do
  if args.style ∉ ["grid", "masked", "points"] then throw .valueError
  if let some k := args.nClosest then
    if k ≤ 1 then throw .valueError
  let a ← s.getKrigingMatrix
  let (pts, mask) ← queryPoints args
  let qs ← s.adjustQuery args pts
  -- ok.py:896-907: fall back to the Python loop if the extension cannot be imported
  let backend := if args.backend = "C" ∧ ¬ env.cAvailable then "loop" else args.backend
  let res ← match args.nClosest with
    | some k => s.movingWindowWith ar env a qs mask backend k.toNat
    | none => s.globalKrigeWith ar a qs mask backend
  return { shape := resultShape args
           z := applyMask args.style mask (res.map Prod.fst)
           ss := applyMask args.style mask (res.map Prod.snd) }

end
end PyKrige
