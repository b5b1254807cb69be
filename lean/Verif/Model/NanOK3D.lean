import Verif.Model.Nan
import Verif.Model.OK3D

/-!
# OrdinaryKriging3D: values that may be nan

The functions of `Model/OK3D.lean` that touch the data values, with values that may be nan (see `Model/Nan.lean`).
-/

namespace PyKrige
noncomputable section
open Matrix

/-- The object: `VALUES` and the statistics may hold nan; the fields `VALUES` and `stats` of `obj` are placeholders
(0, `none`) and are never read. -/
structure NanOK3D (n : ℕ) where
  obj : OK3D n
  Z : Fin n → Option ℝ
  stats : Option NanStats

/-- `OrdinaryKriging3D.__init__`; ok3d.py:198-366 (statistics are always computed) -/
def NanOK3D.create {n : ℕ} (env : Env) (x y z : Fin n → ℝ) (val : Fin n → Option ℝ) (args : OK3DArgs) : Py (NanOK3D n) := do
  if args.pseudoInvType ∉ ["pinv", "pinvh"] then throw .valueError
  let exact ← match args.exactValues with
    | .bool b => pure b
    | .notBool => throw .valueError
  let (name, model, fArg, pArg, an) ← OK3D.resolveModel env args.variogramModel
    args.variogramFunction args.params args.aniso
  let (f, fname) ← chooseFunction name fArg
  let xc ← midrange x
  let yc ← midrange y
  let zc ← midrange z
  let adj := fun i => adjustPoint3 xc yc zc an (x i) (y i) (z i)
  let vp ← makeVariogramParameterList name pArg
  let (lags, ps) ← initializeVariogramModelNan env adj val name vp f args.nlags args.weight "euclidean"
  let stats ← findStatisticsNan adj val f ps "euclidean" args.pseudoInv
  return { obj :=
             { variogramModel := .name name
               model := model
               exactValues := exact
               pseudoInv := args.pseudoInv
               pseudoInvType := args.pseudoInvType
               variogramFunction := f
               functionName := fname
               X_ORIG := x
               Y_ORIG := y
               Z_ORIG := z
               VALUES := fun _ => 0
               XCENTER := xc
               YCENTER := yc
               ZCENTER := zc
               aniso := an
               X_ADJUSTED := fun i => adj i 0
               Y_ADJUSTED := fun i => adj i 1
               Z_ADJUSTED := fun i => adj i 2
               lags := lags
               params := ps
               stats := none }
           Z := val
           stats := some stats }

open Classical in
/-- `_exec_vector(a, bd, mask)`; ok3d.py:624-657 -/
def NanOK3D.execVector {n : ℕ} (t : NanOK3D n) (a : Matrix (Fin (n + 1)) (Fin (n + 1)) ℝ)
    (bd : List (Fin n → ℝ)) : Py (List (Option ℝ × ℝ)) := do
  let a_inv ← invertPython t.obj.pseudoInv t.obj.pseudoInvType a
  let zeroValue : Prop := ∃ row ∈ bd, ∃ k, |row k| ≤ eps
  let γ ← t.obj.variogramFunction t.obj.params
  let b : List (Fin (n + 1) → ℝ) := bd.map fun row =>
    let b : Fin (n + 1) → ℝ := fun _ => 0
    let b := setHead b n fun k => -γ (row k)
    let b := if zeroValue ∧ t.obj.exactValues = true then setWhere b n (fun k => |row k| ≤ eps) 0 else b
    setAt b n 1
  return b.map fun b =>
    let x := a_inv *ᵥ b
    (nanDot (fun k : Fin n => x k.castSucc) t.Z, ∑ k, x k * -b k)

open Classical in
/-- Body of the loop of `_exec_loop`; ok3d.py:673-693 -/
def NanOK3D.loopBody {n : ℕ} (t : NanOK3D n) (a_inv : Matrix (Fin (n + 1)) (Fin (n + 1)) ℝ)
    (bd : Fin n → ℝ) : Py (Option ℝ × ℝ) := do
  let zeroValue : Prop := ∃ k, |bd k| ≤ eps
  let γ ← t.obj.variogramFunction t.obj.params
  let b : Fin (n + 1) → ℝ := fun _ => 0
  let b := setHead b n fun k => -γ (bd k)
  let b := if zeroValue ∧ t.obj.exactValues = true then setWhere b n (fun k => |bd k| ≤ eps) 0 else b
  let b := setAt b n 1
  let x := a_inv *ᵥ b
  return (nanDot (fun k : Fin n => x k.castSucc) t.Z, ∑ k, x k * -b k)

/-- `_exec_loop(a, bd_all, mask)`; ok3d.py:659-695 -/
def NanOK3D.execLoop {n : ℕ} (t : NanOK3D n) (a : Matrix (Fin (n + 1)) (Fin (n + 1)) ℝ)
    (bdAll : List (Fin n → ℝ)) (mask : List Bool) : Py (List (Option ℝ × ℝ)) := do
  let a_inv ← invertPython t.obj.pseudoInv t.obj.pseudoInvType a
  (bdAll.zip mask).mapM fun p => if p.2 then pure (some 0, 0) else t.loopBody a_inv p.1

open Classical in
/-- Body of the loop of `_exec_loop_moving_window`; ok3d.py:709-731 -/
def NanOK3D.windowBody {n : ℕ} (t : NanOK3D n) (aAll : Matrix (Fin (n + 1)) (Fin (n + 1)) ℝ)
    (w : Window n) : Py (Option ℝ × ℝ) := do
  let k := w.sel.length
  let a : Matrix (Fin (k + 1)) (Fin (k + 1)) ℝ := aAll.submatrix w.selector w.selector
  let zeroValue : Prop := ∃ i, |w.bd i| ≤ eps
  let γ ← t.obj.variogramFunction t.obj.params
  let b : Fin (k + 1) → ℝ := fun _ => 0
  let b := setHead b k fun i => -γ (w.bd i)
  let b := if zeroValue ∧ t.obj.exactValues = true then setWhere b k (fun i => |w.bd i| ≤ eps) 0 else b
  let b := setAt b k 1
  let x ← scipySolve a b
  return (nanDot (fun i : Fin k => x i.castSucc) (fun i => t.Z (w.sel.get i)), -∑ i, x i * b i)

/-- `_exec_loop_moving_window(a_all, bd_all, mask, bd_idx)`; ok3d.py:697-733 -/
def NanOK3D.execLoopMovingWindow {n : ℕ} (t : NanOK3D n) (aAll : Matrix (Fin (n + 1)) (Fin (n + 1)) ℝ)
    (ws : List (Window n)) (mask : List Bool) : Py (List (Option ℝ × ℝ)) :=
  (ws.zip mask).mapM fun p => if p.2 then pure (some 0, 0) else t.windowBody aAll p.1

/-- Moving-window branch; ok3d.py:904-916.  `k ≤ 0` is refused by the KD-tree (`ValueError`); `k = 1`
makes it return one-dimensional arrays, so `bd_idx.shape[1]` is an `IndexError`. -/
def NanOK3D.movingWindow {n : ℕ} (env : Env) (t : NanOK3D n) (a : Matrix (Fin (n + 1)) (Fin (n + 1)) ℝ)
    (qs : List (Fin 3 → ℝ)) (mask : List Bool) (backend : String) (k : ℤ) :
    Py (List (Option ℝ × ℝ)) :=
  if k ≤ 0 then .error .valueError
  else if backend = "loop" then
    if k = 1 then .error .indexError
    else if k ≤ n then t.execLoopMovingWindow a (qs.map (t.obj.neighbours env k.toNat)) mask
    else (List.map fun r => (some r.1, r.2)) <$> t.obj.execLoopBeyond env a qs mask k.toNat
  else .error .valueError

/-- Branch without moving window; ok3d.py:917-927 -/
def NanOK3D.globalKrige {n : ℕ} (t : NanOK3D n) (a : Matrix (Fin (n + 1)) (Fin (n + 1)) ℝ)
    (qs : List (Fin 3 → ℝ)) (mask : List Bool) (backend : String) : Py (List (Option ℝ × ℝ)) :=
  let bd : List (Fin n → ℝ) := qs.map fun q => t.obj.queryDist q
  if backend = "vectorized" then t.execVector a bd
  else if backend = "loop" then t.execLoop a bd mask
  else .error .valueError

/-- `execute(...)`; ok3d.py:735-937 -/
def NanOK3D.execute {n : ℕ} (env : Env) (t : NanOK3D n) (args : ExecArgs3) : Py NanResult := do
  if args.style ∉ ["grid", "masked", "points"] then throw .valueError
  let a ← t.obj.getKrigingMatrix
  let (pts, mask) ← queryPoints3 args
  let qs ← t.obj.adjustQuery args pts
  let res ← match args.nClosest with
    | some k => t.movingWindow env a qs mask args.backend k
    | none => t.globalKrige a qs mask args.backend
  return { shape := resultShape3 args
           z := applyMaskNan args.style mask (res.map Prod.fst)
           ss := applyMask args.style mask (res.map Prod.snd) }

end
end PyKrige
