import Verif.Model.Heap

/-!
`OrdinaryKriging3D` (`src/pykrige/ok3d.py`) on memory: arrays by reference, see `Model/Heap.lean`.
-/

namespace PyKrige
noncomputable section
open Matrix

/-- A reference to a three-dimensional array. -/
structure Arr3 where
  buf : ℕ
  d0 : ℕ
  d1 : ℕ
  d2 : ℕ
  cell : ℕ → ℕ → ℕ → ℕ × ℕ

/-- Element `(i, j, k)`. -/
def Arr3.get (h : Heap) (a : Arr3) (i j k : ℕ) : ℝ := h.buf a.buf (a.cell i j k)

/-- `a.swapaxes(0, 2)`: a view. -/
def Arr3.swap (a : Arr3) : Arr3 := { a with d0 := a.d2, d2 := a.d0, cell := fun i j k => a.cell k j i }

/-- `a.flatten()`: a new array, row by row. -/
def Arr3.flatten (a : Arr3) : H Arr := do
  let h ← H.here
  H.newList ((List.range a.d0).flatMap fun i => (List.range a.d1).flatMap fun j =>
    (List.range a.d2).map fun k => a.get h i j k)

/-- `np.vstack((a, b, c))`: a new array. -/
def vstack3 (a b c : Arr) : H Arr := do
  let h ← H.here
  H.new 3 a.cols (fun r i => if r = 0 then a.get h 0 i else if r = 1 then b.get h 0 i else c.get h 0 i)
    (a.isInt && b.isInt && c.isInt)

/-- `_adjust_for_anisotropy(X, [xc, yc, zc], [scaling_y, scaling_z], [angle_x, angle_y, angle_z])` for three columns;
core.py:138-193.  `X` itself is changed: `X -= center`. -/
def adjustForAnisotropy3 (X : Arr) (xc yc zc : ℝ) (an : Aniso3) : H Arr := do
  let center : ℕ → ℝ := fun c => if c = 0 then xc else if c = 1 then yc else zc
  let a0 := an.angleX * Real.pi / 180
  let a1 := an.angleY * Real.pi / 180
  let a2 := an.angleZ * Real.pi / 180
  -- X -= center
  if X.isInt then H.raise .castingError
  let h ← H.here
  X.assign (fun _ _ => True) fun r c => X.get h r c - center c
  let stretch : Matrix (Fin 3) (Fin 3) ℝ := !![1, 0, 0; 0, an.scalingY, 0; 0, 0, an.scalingZ]
  let rotate_x : Matrix (Fin 3) (Fin 3) ℝ :=
    !![1, 0, 0; 0, Real.cos (-a0), -Real.sin (-a0); 0, Real.sin (-a0), Real.cos (-a0)]
  let rotate_y : Matrix (Fin 3) (Fin 3) ℝ :=
    !![Real.cos (-a1), 0, Real.sin (-a1); 0, 1, 0; -Real.sin (-a1), 0, Real.cos (-a1)]
  let rotate_z : Matrix (Fin 3) (Fin 3) ℝ :=
    !![Real.cos (-a2), -Real.sin (-a2), 0; Real.sin (-a2), Real.cos (-a2), 0; 0, 0, 1]
  let rot_tot := rotate_z * (rotate_y * rotate_x)
  -- X_adj = np.dot(stretch, np.dot(rot_tot, X.T)).T
  let h ← H.here
  let prod ← H.new 3 X.rows fun k r =>
    (stretch *ᵥ (rot_tot *ᵥ ![X.get h r 0, X.get h r 1, X.get h r 2])) (if k = 0 then 0 else if k = 1 then 1 else 2)
  let X_adj := prod.T
  -- X_adj += center
  let h ← H.here
  X_adj.assign (fun _ _ => True) fun r c => X_adj.get h r c + center c
  return X_adj

/-! ### The `OrdinaryKriging3D` object -/

/-- The attributes of an `OrdinaryKriging3D` object (compare `OK3D`): data arrays and the parameter list are
references. -/
structure OK3DRef where
  variogramModel : ModelArg
  model : Option GsModel
  exactValues : Bool
  pseudoInv : Bool
  pseudoInvType : String
  variogramFunction : VFun
  functionName : String
  X_ORIG : Arr
  Y_ORIG : Arr
  Z_ORIG : Arr
  VALUES : Arr
  XCENTER : ℝ
  YCENTER : ℝ
  ZCENTER : ℝ
  aniso : Aniso3
  X_ADJUSTED : Arr
  Y_ADJUSTED : Arr
  Z_ADJUSTED : Arr
  lags : List (ℝ × ℝ)
  params : Arr
  stats : Option Stats

/-- What a method that looks at the attributes sees at this moment. -/
def OK3DRef.deref (h : Heap) (n : ℕ) (o : OK3DRef) : OK3D n where
  variogramModel := o.variogramModel
  model := o.model
  exactValues := o.exactValues
  pseudoInv := o.pseudoInv
  pseudoInvType := o.pseudoInvType
  variogramFunction := o.variogramFunction
  functionName := o.functionName
  X_ORIG := o.X_ORIG.vec h n
  Y_ORIG := o.Y_ORIG.vec h n
  Z_ORIG := o.Z_ORIG.vec h n
  VALUES := o.VALUES.vec h n
  XCENTER := o.XCENTER
  YCENTER := o.YCENTER
  ZCENTER := o.ZCENTER
  aniso := o.aniso
  X_ADJUSTED := o.X_ADJUSTED.vec h n
  Y_ADJUSTED := o.Y_ADJUSTED.vec h n
  Z_ADJUSTED := o.Z_ADJUSTED.vec h n
  lags := o.lags
  params := o.params.list h
  stats := o.stats

/-- GSTools part of constructor and update; ok3d.py:233-249, 433-449. -/
def OK3DRef.resolveModel (env : Env) (vm : ModelArg) (f : FunArg) (p : ParamRef) (an : Aniso3) :
    H (String × Option GsModel × FunArg × ParamRef × Aniso3) :=
  match vm with
  | .name s => pure (s, Option.none, f, p, an)
  | .gstools m => do
    H.lift (validateGstools env.gstoolsVersion m)
    if m.fieldDim < 3 then H.raise .valueError
    let l ← H.newList []
    return ("custom", some m, .callable (fun _ => .ok m.vario) "pykrige_vario", .list l,
      { scalingY := m.anisY, scalingZ := m.anisZ, angleX := m.angleX, angleY := m.angleY
        angleZ := m.angleZ })

/-- The rows of `np.vstack((X, Y, Z)).T` -/
def pointsOf3 (h : Heap) (n : ℕ) (X Y Z : Arr) : Fin n → Fin 3 → ℝ :=
  fun i => ![X.vec h n i, Y.vec h n i, Z.vec h n i]

/-- Arguments of the constructor apart from the data; ok3d.py:198-221.  `toOK3DArgs.params` is not used. -/
structure OK3DRefArgs extends OK3DArgs where
  paramRef : ParamRef := .none

/-- The arguments as values. -/
def OK3DRefArgs.deref (h : Heap) (a : OK3DRefArgs) : OK3DArgs := { a.toOK3DArgs with params := a.paramRef.deref h }

/-- `OrdinaryKriging3D.__init__`; ok3d.py:198-366, for arrays of length `n` -/
def OK3DRef.create (n : ℕ) (env : Env) (x y z val : Arr) (args : OK3DRefArgs) : H OK3DRef := do
  if args.pseudoInvType ∉ ["pinv", "pinvh"] then H.raise .valueError
  let exact ← match args.exactValues with
    | .bool b => pure b
    | .notBool => H.raise .valueError
  let (name, model, fArg, pArg, an) ← OK3DRef.resolveModel env args.variogramModel args.variogramFunction
    args.paramRef args.aniso
  let (f, fname) ← H.lift (chooseFunction name fArg)
  let X_ORIG ← x.copyFloat
  let Y_ORIG ← y.copyFloat
  let Z_ORIG ← z.copyFloat
  let VALUES ← val.copyFloat
  let h ← H.here
  let xc ← H.lift (midrange (X_ORIG.vec h n))
  let yc ← H.lift (midrange (Y_ORIG.vec h n))
  let zc ← H.lift (midrange (Z_ORIG.vec h n))
  let S ← vstack3 X_ORIG Y_ORIG Z_ORIG
  let A ← adjustForAnisotropy3 S.T xc yc zc an
  let vp ← makeVariogramParameterListRef name pArg
  let h ← H.here
  let (lags, ps) ← initializeVariogramModelRef env (pointsOf3 h n (A.T.row 0) (A.T.row 1) (A.T.row 2))
    (VALUES.vec h n) name vp f args.nlags args.weight "euclidean"
  let h ← H.here
  let stats ← H.lift (findStatistics (pointsOf3 h n (A.T.row 0) (A.T.row 1) (A.T.row 2)) (VALUES.vec h n) f
    (ps.list h) "euclidean" args.pseudoInv)
  return { variogramModel := .name name
           model := model
           exactValues := exact
           pseudoInv := args.pseudoInv
           pseudoInvType := args.pseudoInvType
           variogramFunction := f
           functionName := fname
           X_ORIG := X_ORIG
           Y_ORIG := Y_ORIG
           Z_ORIG := Z_ORIG
           VALUES := VALUES
           XCENTER := xc
           YCENTER := yc
           ZCENTER := zc
           aniso := an
           X_ADJUSTED := A.T.row 0
           Y_ADJUSTED := A.T.row 1
           Z_ADJUSTED := A.T.row 2
           lags := lags
           params := ps
           stats := some stats }

/-- Arguments of `update_variogram_model`; ok3d.py:368-381.  `toUpdate3D.params` is not used. -/
structure Update3DRef extends Update3D where
  paramRef : ParamRef := .none

/-- The arguments as values. -/
def Update3DRef.deref (h : Heap) (u : Update3DRef) : Update3D := { u.toUpdate3D with params := u.paramRef.deref h }

open Classical in
/-- Re-adjusting the data in `update_variogram_model`; ok3d.py:463-486. -/
def OK3DRef.reAniso (o : OK3DRef) (an : Aniso3) : H OK3DRef :=
  if an.scalingY ≠ o.aniso.scalingY ∨ an.scalingZ ≠ o.aniso.scalingZ ∨
      an.angleX ≠ o.aniso.angleX ∨ an.angleY ≠ o.aniso.angleY ∨ an.angleZ ≠ o.aniso.angleZ then do
    let S ← vstack3 o.X_ORIG o.Y_ORIG o.Z_ORIG
    let A ← adjustForAnisotropy3 S.T o.XCENTER o.YCENTER o.ZCENTER an
    return { o with aniso := an, X_ADJUSTED := A.T.row 0, Y_ADJUSTED := A.T.row 1, Z_ADJUSTED := A.T.row 2 }
  else pure o

/-- `update_variogram_model`; ok3d.py:368-550.  Returns what it raises, if anything, and the object afterwards
(attributes assigned before an exception stay assigned). -/
def OK3DRef.update (n : ℕ) (env : Env) (o : OK3DRef) (u : Update3DRef) (h : Heap) : (Py Unit × OK3DRef) × Heap :=
  let o := { o with variogramModel := u.variogramModel, model := Option.none }
  match OK3DRef.resolveModel env u.variogramModel u.variogramFunction u.paramRef u.aniso h with
  | (.error e, h) =>
    ((.error e, match u.variogramModel with
      | .gstools m => { o with model := some m }
      | .name _ => o), h)
  | (.ok (name, model, fArg, pArg, an), h) =>
  let o := { o with variogramModel := .name name, model := model }
  match chooseFunction name fArg with
  | .error e => ((.error e, o), h)
  | .ok (f, fname) =>
  let o := { o with variogramFunction := f, functionName := fname }
  match o.reAniso an h with
  | (.error e, h) => ((.error e, o), h)
  | (.ok o, h) =>
  match makeVariogramParameterListRef name pArg h with
  | (.error e, h) => ((.error e, o), h)
  | (.ok vp, h) =>
  match initializeVariogramModelRef env (pointsOf3 h n o.X_ADJUSTED o.Y_ADJUSTED o.Z_ADJUSTED) (o.VALUES.vec h n)
      name vp f u.nlags u.weight "euclidean" h with
  | (.error e, h) => ((.error e, o), h)
  | (.ok (lags, ps), h) =>
  let o := { o with lags := lags, params := ps }
  match findStatistics (pointsOf3 h n o.X_ADJUSTED o.Y_ADJUSTED o.Z_ADJUSTED) (o.VALUES.vec h n) f (ps.list h)
      "euclidean" o.pseudoInv with
  | .error e => ((.error e, o), h)
  | .ok st => ((.ok (), { o with stats := some st }), h)

/-! ### `execute` -/

/-- `_get_kriging_matrix(n)`; ok3d.py:603-622 -/
def OK3DRef.getKrigingMatrix (n : ℕ) (o : OK3DRef) : H Arr := do
  let h ← H.here
  let s := o.deref h n
  let a ← H.new (n + 1) (n + 1) fun _ _ => 0
  let γ ← H.lift (s.variogramFunction s.params)
  -- a[:n, :n] = -variogram_function(..., d)
  a.assign (fun r c => r < n ∧ c < n) fun r c =>
    if hr : r < n then if hc : c < n then -γ (euclid (s.pts ⟨r, hr⟩) (s.pts ⟨c, hc⟩)) else 0 else 0
  a.assign (fun r c => r = c) fun _ _ => 0
  a.assign (fun r _ => r = n) fun _ _ => 1
  a.assign (fun _ c => c = n) fun _ _ => 1
  a.assign (fun r c => r = n ∧ c = n) fun _ _ => 0
  return a

/-- `_exec_vector(a, bd, mask)`; ok3d.py:624-657 -/
def OK3DRef.execVector (n : ℕ) (o : OK3DRef) (a : Arr) (bd : List (Fin n → ℝ)) : H (Arr × Arr) := do
  let h ← H.here
  let s := o.deref h n
  let a_inv ← H.lift (invertPython s.pseudoInv s.pseudoInvType (a.mat h (n + 1)))
  let γ ← H.lift (s.variogramFunction s.params)
  let b ← rightHandSides γ s.exactValues bd
  let h ← H.here
  let x : ℕ → Fin (n + 1) → ℝ := fun r => a_inv *ᵥ fun k => b.get h r k
  let kvalues ← H.newList ((List.range bd.length).map fun r => ∑ k : Fin n, x r k.castSucc * o.VALUES.vec h n k)
  let sigmasq ← H.newList ((List.range bd.length).map fun r => ∑ k : Fin (n + 1), x r k * -b.get h r k)
  return (kvalues, sigmasq)

/-- Body of the loop of `_exec_loop` at an unmasked point; ok3d.py:673-693 -/
def OK3DRef.loopBody (n : ℕ) (o : OK3DRef) (a_inv : Matrix (Fin (n + 1)) (Fin (n + 1)) ℝ) (bd : Fin n → ℝ) :
    H (ℝ × ℝ) := do
  let h ← H.here
  let s := o.deref h n
  let γ ← H.lift (s.variogramFunction s.params)
  let b ← rightHandSide γ s.exactValues bd
  let h ← H.here
  let x := a_inv *ᵥ b.vec h (n + 1)
  return (∑ k : Fin n, x k.castSucc * o.VALUES.vec h n k, ∑ k, x k * -b.vec h (n + 1) k)

/-- Body of the loop of `_exec_loop_moving_window` at an unmasked point; ok3d.py:709-731 -/
def OK3DRef.windowBody (n : ℕ) (o : OK3DRef) (aAll : Arr) (w : Window n) : H (ℝ × ℝ) := do
  let k := w.sel.length
  let h ← H.here
  let s := o.deref h n
  let a : Matrix (Fin (k + 1)) (Fin (k + 1)) ℝ := (aAll.mat h (n + 1)).submatrix w.selector w.selector
  let γ ← H.lift (s.variogramFunction s.params)
  let b ← rightHandSide γ s.exactValues w.bd
  let h ← H.here
  let x ← H.lift (scipySolve a (b.vec h (k + 1)))
  return (∑ i : Fin k, x i.castSucc * o.VALUES.vec h n (w.sel.get i), -∑ i, x i * b.vec h (k + 1) i)

/-- `_exec_loop(a, bd_all, mask)`; ok3d.py:659-695 -/
def OK3DRef.execLoop (n : ℕ) (o : OK3DRef) (a : Arr) (bdAll : List (Fin n → ℝ)) (mask : List Bool) :
    H (Arr × Arr) := do
  let h ← H.here
  let a_inv ← H.lift (invertPython o.pseudoInv o.pseudoInvType (a.mat h (n + 1)))
  runLoop (o.loopBody n a_inv) (bdAll.zip mask)

/-- The branch without moving window; ok3d.py:917-927. -/
def OK3DRef.globalKrige (n : ℕ) (o : OK3DRef) (a : Arr) (qs : List (Fin 3 → ℝ)) (mask : List Bool)
    (backend : String) : H (Arr × Arr) := do
  let h ← H.here
  let s := o.deref h n
  let bd : List (Fin n → ℝ) := qs.map fun q => s.queryDist q
  if backend = "vectorized" then o.execVector n a bd
  else if backend = "loop" then o.execLoop n a bd mask
  else H.raise .valueError

/-- The moving-window branch; ok3d.py:904-916.  Windows larger than the data set, and the errors of the KD-tree, are
modelled on values. -/
def OK3DRef.movingWindow (n : ℕ) (env : Env) (o : OK3DRef) (a : Arr) (qs : List (Fin 3 → ℝ)) (mask : List Bool)
    (backend : String) (k : ℤ) : H (Arr × Arr) := do
  let h ← H.here
  let s := o.deref h n
  if 1 < k ∧ k ≤ n ∧ backend = "loop" then
    runLoop (o.windowBody n a) ((qs.map (s.neighbours env k.toNat)).zip mask)
  else newResults (s.movingWindow env (a.mat h (n + 1)) qs mask backend k)

/-- The argument `mask` of the 3D classes. -/
inductive Mask3Ref
  | wrongNdim (buf : ℕ)
  | arr (a : Arr3)

/-- Its buffer. -/
def Mask3Ref.buf : Mask3Ref → ℕ
  | .wrongNdim b => b
  | .arr a => a.buf

open Classical in
/-- The mask as it is now. -/
def Mask3Ref.deref (h : Heap) : Mask3Ref → Mask3
  | .wrongNdim _ => .wrongNdim
  | .arr a => .arr a.d0 a.d1 a.d2 fun i j k => decide (a.get h i j k ≠ 0)

/-- Arguments of `execute` of the 3D classes; ok3d.py:735-744: arrays by reference. -/
structure ExecRefs3 where
  style : String
  xpoints : Arr
  ypoints : Arr
  zpoints : Arr
  mask : Option Mask3Ref := none
  backend : String := "vectorized"
  nClosest : Option ℤ := none

/-- The arguments as values, at this moment. -/
def ExecRefs3.deref (h : Heap) (a : ExecRefs3) : ExecArgs3 where
  style := a.style
  xpoints := { vals := a.xpoints.list h, isInt := a.xpoints.isInt }
  ypoints := { vals := a.ypoints.list h, isInt := a.ypoints.isInt }
  zpoints := { vals := a.zpoints.list h, isInt := a.zpoints.isInt }
  mask := a.mask.map (Mask3Ref.deref h)
  backend := a.backend
  nClosest := a.nClosest

/-- `np.meshgrid(zpts, ypts, xpts, indexing="ij")` and `flatten()`: new arrays; ok3d.py:861-864 -/
def meshgridRef3 (xpts ypts zpts : Arr) : H (Arr × Arr × Arr) := do
  let h ← H.here
  let g := meshgridFlat3 (xpts.list h) (ypts.list h) (zpts.list h)
  let gx ← H.newList (g.map Prod.fst) xpts.isInt
  let gy ← H.newList (g.map fun p => p.2.1) ypts.isInt
  let gz ← H.newList (g.map fun p => p.2.2) zpts.isInt
  return (gx, gy, gz)

/-- Query points and mask; ok3d.py:841-878, 887-888.  `xpts`, `ypts`, `zpts` are the copies made in ok3d.py:833-835.
In the 'points' branch the explicit length check uses `and`; lengths that pass it but differ make `np.vstack` raise
`ValueError` (ok3d.py:881). -/
def queryPoints3Ref (args : ExecRefs3) (xpts ypts zpts : Arr) : H ((Arr × Arr × Arr) × Arr) := do
  let nx := xpts.cols
  let ny := ypts.cols
  let nz := zpts.cols
  if args.style ∈ ["grid", "masked"] then
    if args.style = "masked" then
      match args.mask with
      | none => H.raise .ioError
      | some (.wrongNdim _) => H.raise .valueError
      | some (.arr m) =>
        if m.d0 ≠ nz ∨ m.d1 ≠ ny ∨ m.d2 ≠ nx then
          if m.d0 = nx ∧ m.d2 = nz ∧ m.d1 = ny then
            let mask ← m.swap.flatten
            let g ← meshgridRef3 xpts ypts zpts
            return (g, mask)
          else H.raise .valueError
        else
          let mask ← m.flatten
          let g ← meshgridRef3 xpts ypts zpts
          return (g, mask)
    else
      let g ← meshgridRef3 xpts ypts zpts
      let mask ← H.newBools (List.replicate (nz * ny * nx) false)
      return (g, mask)
  else if args.style = "points" then
    if nx ≠ ny ∧ ny ≠ nz then H.raise .valueError
    else if nx ≠ ny ∨ ny ≠ nz then H.raise .valueError
    else
      let mask ← H.newBools (List.replicate nx false)
      return ((xpts, ypts, zpts), mask)
  else H.raise .valueError

/-- `_adjust_for_anisotropy` on the query points; ok3d.py:880-885.  The result holds one point per row. -/
def adjustQuery3 (xc yc zc : ℝ) (an : Aniso3) (g : Arr × Arr × Arr) : H Arr := do
  let S ← vstack3 g.1 g.2.1 g.2.2
  adjustForAnisotropy3 S.T xc yc zc an

/-- The rows of an array with three columns. -/
def Arr.rows3 (h : Heap) (a : Arr) : List (Fin 3 → ℝ) :=
  (List.range a.rows).map fun r => ![a.get h r 0, a.get h r 1, a.get h r 2]

/-- `execute(...)`; ok3d.py:735-932 -/
def OK3DRef.execute (n : ℕ) (env : Env) (o : OK3DRef) (args : ExecRefs3) : H ResultRef := do
  if args.style ∉ ["grid", "masked", "points"] then H.raise .valueError
  let xpts ← args.xpoints.copy
  let ypts ← args.ypoints.copy
  let zpts ← args.zpoints.copy
  let a ← o.getKrigingMatrix n
  let (g, mask) ← queryPoints3Ref args xpts ypts zpts
  let A ← adjustQuery3 o.XCENTER o.YCENTER o.ZCENTER o.aniso g
  let h ← H.here
  let r ← match args.nClosest with
    | some k => o.movingWindow n env a (A.rows3 h) (mask.bools h) args.backend k
    | none => o.globalKrige n a (A.rows3 h) (mask.bools h) args.backend
  return { shape := if args.style ∈ ["masked", "grid"] then [zpts.cols, ypts.cols, xpts.cols] else [xpts.cols]
           z := r.1, ss := r.2
           mask := if args.style = "masked" then some mask else none }

end
end PyKrige
