import Verif.Model.OK

/-!
Model of `src/pykrige/ok3d.py` (class `OrdinaryKriging3D`).
-/

namespace PyKrige
noncomputable section
open Matrix

/-- Anisotropy settings of the 3D classes: scaling in y and z, angles about x, y, z (degrees). -/
structure Aniso3 where
  scalingY : ℝ := 1
  scalingZ : ℝ := 1
  angleX : ℝ := 0
  angleY : ℝ := 0
  angleZ : ℝ := 0

/-- The attributes of an `OrdinaryKriging3D` object; ok3d.py:217-366. -/
structure OK3D (n : ℕ) where
  variogramModel : ModelArg
  model : Option GsModel
  exactValues : Bool
  pseudoInv : Bool
  pseudoInvType : String
  variogramFunction : VFun
  functionName : String
  X_ORIG : Fin n → ℝ
  Y_ORIG : Fin n → ℝ
  Z_ORIG : Fin n → ℝ
  VALUES : Fin n → ℝ
  XCENTER : ℝ
  YCENTER : ℝ
  ZCENTER : ℝ
  aniso : Aniso3
  X_ADJUSTED : Fin n → ℝ
  Y_ADJUSTED : Fin n → ℝ
  Z_ADJUSTED : Fin n → ℝ
  lags : List (ℝ × ℝ)
  params : List ℝ
  stats : Option Stats

/-- Arguments of the constructor apart from the data; ok3d.py:198-221. -/
structure OK3DArgs where
  variogramModel : ModelArg := .name "linear"
  params : ParamArg := .none
  variogramFunction : FunArg := .none
  nlags : ℕ := 6
  weight : Bool := false
  aniso : Aniso3 := {}
  exactValues : BoolArg := .bool true
  pseudoInv : Bool := false
  pseudoInvType : String := "pinv"

/-- GSTools part of constructor and update; ok3d.py:233-249, 433-449 (uk3d.py: the same). -/
def OK3D.resolveModel (env : Env) (vm : ModelArg) (f : FunArg) (p : ParamArg) (an : Aniso3) :
    Py (String × Option GsModel × FunArg × ParamArg × Aniso3) :=
  match vm with
  | .name s => .ok (s, none, f, p, an)
  | .gstools m => do
    validateGstools env.gstoolsVersion m
    if m.fieldDim < 3 then throw .valueError
    return ("custom", some m, .callable (fun _ => .ok m.vario) "pykrige_vario", .list [],
      { scalingY := m.anisY, scalingZ := m.anisZ, angleX := m.angleX, angleY := m.angleY
        angleZ := m.angleZ })

/-- Rows of `np.vstack((X_ADJUSTED, Y_ADJUSTED, Z_ADJUSTED)).T`. -/
def OK3D.pts {n : ℕ} (s : OK3D n) (i : Fin n) : Fin 3 → ℝ :=
  ![s.X_ADJUSTED i, s.Y_ADJUSTED i, s.Z_ADJUSTED i]

/-- `_adjust_for_anisotropy` on one point with the object's settings; ok3d.py:297-302, 880-885. -/
def adjustPoint3 (xc yc zc : ℝ) (an : Aniso3) (x y z : ℝ) : Fin 3 → ℝ :=
  adjust3 ![xc, yc, zc] ![an.scalingY, an.scalingZ] ![an.angleX, an.angleY, an.angleZ] ![x, y, z]

/-- `OrdinaryKriging3D.__init__`; ok3d.py:198-366 (statistics are always computed) -/
def OK3D.create {n : ℕ} (env : Env) (x y z val : Fin n → ℝ) (args : OK3DArgs) : Py (OK3D n) := do
  if args.pseudoInvType ∉ ["pinv", "pinvh"] then throw .valueError
  let exact ← match args.exactValues with
    | .bool b => pure b
    | .notBool => throw .valueError
  let (name, model, fArg, pArg, an) ← OK3D.resolveModel env args.variogramModel
    args.variogramFunction args.params args.aniso
  let (f, fname) ← chooseFunction name fArg
  let xc ← midrange x
  let yc ← midrange y
  let zc ← midrange z
  let adj := fun i => adjustPoint3 xc yc zc an (x i) (y i) (z i)
  let vp ← makeVariogramParameterList name pArg
  let (lags, ps) ← initializeVariogramModel env adj val name vp f args.nlags args.weight "euclidean"
  let stats ← findStatistics adj val f ps "euclidean" args.pseudoInv
  return { variogramModel := .name name
           model := model
           exactValues := exact
           pseudoInv := args.pseudoInv
           pseudoInvType := args.pseudoInvType
           variogramFunction := f
           functionName := fname
           X_ORIG := x
           Y_ORIG := y
           Z_ORIG := z
           VALUES := val
           XCENTER := xc
           YCENTER := yc
           ZCENTER := zc
           aniso := an
           X_ADJUSTED := fun i => adj i 0
           Y_ADJUSTED := fun i => adj i 1
           Z_ADJUSTED := fun i => adj i 2
           lags := lags
           params := ps
           stats := some stats }

/-- Arguments of `update_variogram_model`; ok3d.py:368-381. -/
structure Update3D where
  variogramModel : ModelArg
  params : ParamArg := .none
  variogramFunction : FunArg := .none
  nlags : ℕ := 6
  weight : Bool := false
  aniso : Aniso3 := {}

open Classical in
/-- The part of `update_variogram_model` that re-adjusts the data when the anisotropy changes; ok3d.py:463-486. -/
def OK3D.reAniso {n : ℕ} (s : OK3D n) (an : Aniso3) : OK3D n :=
  if an.scalingY ≠ s.aniso.scalingY ∨ an.scalingZ ≠ s.aniso.scalingZ ∨
      an.angleX ≠ s.aniso.angleX ∨ an.angleY ≠ s.aniso.angleY ∨ an.angleZ ≠ s.aniso.angleZ then
    let adj := fun i =>
      adjustPoint3 s.XCENTER s.YCENTER s.ZCENTER an (s.X_ORIG i) (s.Y_ORIG i) (s.Z_ORIG i)
    { s with aniso := an
             X_ADJUSTED := fun i => adj i 0
             Y_ADJUSTED := fun i => adj i 1
             Z_ADJUSTED := fun i => adj i 2 }
  else s

open Classical in
/-- `update_variogram_model`; ok3d.py:368-550 -/
def OK3D.update {n : ℕ} (env : Env) (s : OK3D n) (u : Update3D) : Py Unit × OK3D n :=
  let s := { s with variogramModel := u.variogramModel, model := none }
  match OK3D.resolveModel env u.variogramModel u.variogramFunction u.params u.aniso with
  | .error e =>
    (.error e, match u.variogramModel with
      | .gstools m => { s with model := some m }
      | .name _ => s)
  | .ok (name, model, fArg, pArg, an) =>
  let s := { s with variogramModel := .name name, model := model }
  match chooseFunction name fArg with
  | .error e => (.error e, s)
  | .ok (f, fname) =>
  let s := { s with variogramFunction := f, functionName := fname }
  let s := s.reAniso an
  match makeVariogramParameterList name pArg with
  | .error e => (.error e, s)
  | .ok vp =>
  match initializeVariogramModel env s.pts s.VALUES name vp f u.nlags u.weight "euclidean" with
  | .error e => (.error e, s)
  | .ok (lags, ps) =>
  let s := { s with lags := lags, params := ps }
  match findStatistics s.pts s.VALUES f ps "euclidean" s.pseudoInv with
  | .error e => (.error e, s)
  | .ok st => (.ok (), { s with stats := some st })

/-- `_get_kriging_matrix(n)`; ok3d.py:603-622 -/
def OK3D.getKrigingMatrix {n : ℕ} (s : OK3D n) : Py (Matrix (Fin (n + 1)) (Fin (n + 1)) ℝ) := do
  let γ ← s.variogramFunction s.params
  let a := npZeros (n + 1)
  let a := setBlock a n fun i j => -γ (euclid (s.pts i) (s.pts j))
  let a := fillDiagonal a 0
  let a := setRow a n 1
  let a := setCol a n 1
  let a := setEntry a n n 0
  return a

open Classical in
/-- `_exec_vector(a, bd, mask)`; ok3d.py:624-657 -/
def OK3D.execVector {n : ℕ} (s : OK3D n) (a : Matrix (Fin (n + 1)) (Fin (n + 1)) ℝ)
    (bd : List (Fin n → ℝ)) : Py (List (ℝ × ℝ)) := do
  let a_inv ← invertPython s.pseudoInv s.pseudoInvType a
  let zeroValue : Prop := ∃ row ∈ bd, ∃ k, |row k| ≤ eps
  let γ ← s.variogramFunction s.params
  let b : List (Fin (n + 1) → ℝ) := bd.map fun row =>
    let b : Fin (n + 1) → ℝ := fun _ => 0
    let b := setHead b n fun k => -γ (row k)
    let b := if zeroValue ∧ s.exactValues = true then setWhere b n (fun k => |row k| ≤ eps) 0 else b
    setAt b n 1
  return b.map fun b =>
    let x := a_inv *ᵥ b
    (∑ k : Fin n, x k.castSucc * s.VALUES k, ∑ k, x k * -b k)

open Classical in
/-- Body of the loop of `_exec_loop`; ok3d.py:673-693 -/
def OK3D.loopBody {n : ℕ} (s : OK3D n) (a_inv : Matrix (Fin (n + 1)) (Fin (n + 1)) ℝ)
    (bd : Fin n → ℝ) : Py (ℝ × ℝ) := do
  let zeroValue : Prop := ∃ k, |bd k| ≤ eps
  let γ ← s.variogramFunction s.params
  let b : Fin (n + 1) → ℝ := fun _ => 0
  let b := setHead b n fun k => -γ (bd k)
  let b := if zeroValue ∧ s.exactValues = true then setWhere b n (fun k => |bd k| ≤ eps) 0 else b
  let b := setAt b n 1
  let x := a_inv *ᵥ b
  return (∑ k : Fin n, x k.castSucc * s.VALUES k, ∑ k, x k * -b k)

/-- `_exec_loop(a, bd_all, mask)`; ok3d.py:659-695 -/
def OK3D.execLoop {n : ℕ} (s : OK3D n) (a : Matrix (Fin (n + 1)) (Fin (n + 1)) ℝ)
    (bdAll : List (Fin n → ℝ)) (mask : List Bool) : Py (List (ℝ × ℝ)) := do
  let a_inv ← invertPython s.pseudoInv s.pseudoInvType a
  (bdAll.zip mask).mapM fun p => if p.2 then pure (0, 0) else s.loopBody a_inv p.1

open Classical in
/-- Body of the loop of `_exec_loop_moving_window`; ok3d.py:709-731 -/
def OK3D.windowBody {n : ℕ} (s : OK3D n) (aAll : Matrix (Fin (n + 1)) (Fin (n + 1)) ℝ)
    (w : Window n) : Py (ℝ × ℝ) := do
  let k := w.sel.length
  let a : Matrix (Fin (k + 1)) (Fin (k + 1)) ℝ := aAll.submatrix w.selector w.selector
  let zeroValue : Prop := ∃ i, |w.bd i| ≤ eps
  let γ ← s.variogramFunction s.params
  let b : Fin (k + 1) → ℝ := fun _ => 0
  let b := setHead b k fun i => -γ (w.bd i)
  let b := if zeroValue ∧ s.exactValues = true then setWhere b k (fun i => |w.bd i| ≤ eps) 0 else b
  let b := setAt b k 1
  let x ← scipySolve a b
  return (∑ i : Fin k, x i.castSucc * s.VALUES (w.sel.get i), -∑ i, x i * b i)

/-- `_exec_loop_moving_window(a_all, bd_all, mask, bd_idx)`; ok3d.py:697-733 -/
def OK3D.execLoopMovingWindow {n : ℕ} (s : OK3D n) (aAll : Matrix (Fin (n + 1)) (Fin (n + 1)) ℝ)
    (ws : List (Window n)) (mask : List Bool) : Py (List (ℝ × ℝ)) :=
  (ws.zip mask).mapM fun p => if p.2 then pure (0, 0) else s.windowBody aAll p.1

/-- A boolean mask array for a 3D grid: `wrongNdim` is an array whose `ndim` is not 3. -/
inductive Mask3
  | wrongNdim
  | arr (d0 d1 d2 : ℕ) (get : ℕ → ℕ → ℕ → Bool)

/-- `flatten()` of a three-dimensional array (row-major) -/
def flatten3 (d0 d1 d2 : ℕ) (get : ℕ → ℕ → ℕ → Bool) : List Bool :=
  (List.range d0).flatMap fun i => (List.range d1).flatMap fun j =>
    (List.range d2).map fun k => get i j k

/-- `np.meshgrid(zpts, ypts, xpts, indexing="ij")` flattened: row-major over shape `(nz, ny, nx)`;
ok3d.py:861-864 -/
def meshgridFlat3 (xs ys zs : List ℝ) : List (ℝ × ℝ × ℝ) :=
  zs.flatMap fun z => ys.flatMap fun y => xs.map fun x => (x, y, z)

/-- Arguments of `execute` of the 3D classes; ok3d.py:735-744, uk3d.py:877-887 -/
structure ExecArgs3 where
  style : String
  xpoints : QArray
  ypoints : QArray
  zpoints : QArray
  mask : Option Mask3 := none
  backend : String := "vectorized"
  nClosest : Option ℤ := none

/-- Query points and flattened mask; ok3d.py:841-878.  In the 'points' branch the explicit length
check uses `and`; lengths that pass it but differ make `np.vstack` raise `ValueError` (ok3d.py:881),
so any difference in length is a `ValueError`. -/
def queryPoints3 (args : ExecArgs3) : Py (List (ℝ × ℝ × ℝ) × List Bool) :=
  let xs := args.xpoints.vals
  let ys := args.ypoints.vals
  let zs := args.zpoints.vals
  if args.style ∈ ["grid", "masked"] then
    if args.style = "masked" then
      match args.mask with
      | none => .error .ioError
      | some .wrongNdim => .error .valueError
      | some (.arr d0 d1 d2 get) =>
        if d0 ≠ zs.length ∨ d1 ≠ ys.length ∨ d2 ≠ xs.length then
          if d0 = xs.length ∧ d2 = zs.length ∧ d1 = ys.length then
            .ok (meshgridFlat3 xs ys zs, flatten3 d2 d1 d0 fun i j k => get k j i)
          else .error .valueError
        else .ok (meshgridFlat3 xs ys zs, flatten3 d0 d1 d2 get)
    else .ok (meshgridFlat3 xs ys zs, List.replicate (zs.length * ys.length * xs.length) false)
  else if args.style = "points" then
    if xs.length ≠ ys.length ∧ ys.length ≠ zs.length then .error .valueError
    else if xs.length ≠ ys.length ∨ ys.length ≠ zs.length then .error .valueError
    else .ok (xs.zip (ys.zip zs), List.replicate xs.length false)
  else .error .valueError

/-- `_adjust_for_anisotropy` on the query points; ok3d.py:880-885.  An all-integer coordinate array
is refused by the in-place subtraction of the (float) centre, core.py:143. -/
def OK3D.adjustQuery {n : ℕ} (s : OK3D n) (args : ExecArgs3) (pts : List (ℝ × ℝ × ℝ)) :
    Py (List (Fin 3 → ℝ)) :=
  if args.xpoints.isInt && args.ypoints.isInt && args.zpoints.isInt then .error .castingError
  else .ok (pts.map fun p => adjustPoint3 s.XCENTER s.YCENTER s.ZCENTER s.aniso p.1 p.2.1 p.2.2)

/-- `xyz_points`/`xyz_data` hold the coordinates in the order (z, y, x); ok3d.py:890-901 -/
def zyx (p : Fin 3 → ℝ) : Fin 3 → ℝ := ![p 2, p 1, p 0]

/-- `cdist(xyz_points, xyz_data, "euclidean")`; ok3d.py:902 -/
def OK3D.queryDist {n : ℕ} (s : OK3D n) (q : Fin 3 → ℝ) (i : Fin n) : ℝ :=
  euclid (zyx q) (zyx (s.pts i))

/-- KD-tree query; ok3d.py:905-908 -/
def OK3D.neighbours {n : ℕ} (env : Env) (s : OK3D n) (k : ℕ) (q : Fin 3 → ℝ) : Window n :=
  let sel := env.knn (fun i => zyx (s.pts i)) (zyx q) k
  { sel := sel, bd := fun i => s.queryDist q (sel.get i) }

/-- `_exec_loop_moving_window` when the window is larger than the data set; ok3d.py:697-733. -/
def OK3D.execLoopBeyond {n : ℕ} (env : Env) (s : OK3D n) (a : Matrix (Fin (n + 1)) (Fin (n + 1)) ℝ)
    (qs : List (Fin 3 → ℝ)) (mask : List Bool) (k : ℕ) : Py (List (ℝ × ℝ)) :=
  (qs.zip mask).mapM fun p => if p.2 then pure (0, 0) else do
    let γ ← s.variogramFunction s.params
    (s.neighbours env n p.1).beyondBody env γ s.exactValues a k

/-- Moving-window branch; ok3d.py:904-916.  `k ≤ 0` is refused by the KD-tree (`ValueError`); `k = 1`
makes it return one-dimensional arrays, so `bd_idx.shape[1]` is an `IndexError`. -/
def OK3D.movingWindow {n : ℕ} (env : Env) (s : OK3D n) (a : Matrix (Fin (n + 1)) (Fin (n + 1)) ℝ)
    (qs : List (Fin 3 → ℝ)) (mask : List Bool) (backend : String) (k : ℤ) :
    Py (List (ℝ × ℝ)) :=
  if k ≤ 0 then .error .valueError
  else if backend = "loop" then
    if k = 1 then .error .indexError
    else if k ≤ n then s.execLoopMovingWindow a (qs.map (s.neighbours env k.toNat)) mask
    else s.execLoopBeyond env a qs mask k.toNat
  else .error .valueError

/-- Branch without moving window; ok3d.py:917-927 -/
def OK3D.globalKrige {n : ℕ} (s : OK3D n) (a : Matrix (Fin (n + 1)) (Fin (n + 1)) ℝ)
    (qs : List (Fin 3 → ℝ)) (mask : List Bool) (backend : String) : Py (List (ℝ × ℝ)) :=
  let bd : List (Fin n → ℝ) := qs.map fun q => s.queryDist q
  if backend = "vectorized" then s.execVector a bd
  else if backend = "loop" then s.execLoop a bd mask
  else .error .valueError

/-- Shape of the returned arrays; ok3d.py:933-935 -/
def resultShape3 (args : ExecArgs3) : List ℕ :=
  if args.style ∈ ["masked", "grid"] then
    [args.zpoints.vals.length, args.ypoints.vals.length, args.xpoints.vals.length]
  else [args.xpoints.vals.length]

/-- `execute(...)`; ok3d.py:735-937 -/
def OK3D.execute {n : ℕ} (env : Env) (s : OK3D n) (args : ExecArgs3) : Py ExecResult := do
  if args.style ∉ ["grid", "masked", "points"] then throw .valueError
  let a ← s.getKrigingMatrix
  let (pts, mask) ← queryPoints3 args
  let qs ← s.adjustQuery args pts
  let res ← match args.nClosest with
    | some k => s.movingWindow env a qs mask args.backend k
    | none => s.globalKrige a qs mask args.backend
  return { shape := resultShape3 args
           z := applyMask args.style mask (res.map Prod.fst)
           ss := applyMask args.style mask (res.map Prod.snd) }

end
end PyKrige
