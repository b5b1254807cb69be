import Verif.Model.Heap
import Verif.Model.UK

/-!
`UniversalKriging` with arrays by reference (compare `Model/Heap.lean`).  What `UniversalKriging` shares with
`OrdinaryKriging` (the data arrays, the variogram and `update_variogram_model`, which is the same code with
`coordinates_type = 'euclidean'`) is the component `core`; `UK.create_eq` and `OK.update_toUK` (`Lemmas/ToUK.lean`)
prove that this is the model of `Model/UK.lean`.

The kriging matrix and the right-hand sides are assembled in arrays that `_get_kriging_matrix`, `_exec_vector`
and `_exec_loop` have created with `np.zeros`: they are modelled on values.  Drift functions are values: that they do
not assign into the arrays they are given (`X_ADJUSTED` itself, uk.py:909) is an assumption.
-/

namespace PyKrige
noncomputable section
open Matrix

/-- The attributes of the external drift; uk.py:421-441. -/
structure ExtRef where
  /-- `external_Z_array` -/
  array : Arr
  /-- `external_Z_array_x` -/
  xs : Arr
  /-- `external_Z_array_y` -/
  ys : Arr
  /-- `z_scalars` -/
  scalars : Arr

/-- The grid as it is now. -/
def extGrid (h : Heap) (array xs ys : Arr) : ExtDrift where
  nx := (xs.list h).length
  ny := (ys.list h).length
  xs := (xs.list h).get
  ys := (ys.list h).get
  z := fun r c => array.get h r c

/-- The rows of an array with three columns. -/
def Arr.wells (h : Heap) (a : Arr) : List (ℝ × ℝ × ℝ) :=
  (List.range a.rows).map fun r => (a.get h r 0, a.get h r 1, a.get h r 2)

/-- The drift attributes as values; uk.py:401-510. -/
structure UKDrift (n : ℕ) where
  regionalLinear : Bool
  pointLog : Option (List (ℝ × ℝ × ℝ))
  externalZ : Option (ExtDrift × (Fin n → ℝ))
  specified : Option (List (Fin n → ℝ))
  functional : Option (List (ℝ → ℝ → ℝ))

/-- The drift attributes; uk.py:401-510. -/
structure UKDriftRef where
  regionalLinear : Bool
  /-- `point_log_array` -/
  pointLog : Option Arr
  externalZ : Option ExtRef
  /-- `specified_drift_data_arrays` -/
  specified : Option (List Arr)
  functional : Option (List (ℝ → ℝ → ℝ))

/-- The drift attributes as they are now. -/
def UKDriftRef.deref (h : Heap) (n : ℕ) (d : UKDriftRef) : UKDrift n where
  regionalLinear := d.regionalLinear
  pointLog := d.pointLog.map (Arr.wells h)
  externalZ := d.externalZ.map fun e => (extGrid h e.array e.xs e.ys, e.scalars.vec h n)
  specified := d.specified.map fun l => l.map fun a => a.vec h n
  functional := d.functional

/-- A `UniversalKriging` object from what it has in common with an `OrdinaryKriging` object and its drift. -/
def OK.toUK {n : ℕ} (s : OK n) (d : UKDrift n) : UK n where
  variogramModel := s.variogramModel
  model := s.model
  exactValues := s.exactValues
  pseudoInv := s.pseudoInv
  pseudoInvType := s.pseudoInvType
  variogramFunction := s.variogramFunction
  functionName := s.functionName
  X_ORIG := s.X_ORIG
  Y_ORIG := s.Y_ORIG
  Z := s.Z
  XCENTER := s.XCENTER
  YCENTER := s.YCENTER
  anisotropyScaling := s.anisotropyScaling
  anisotropyAngle := s.anisotropyAngle
  X_ADJUSTED := s.X_ADJUSTED
  Y_ADJUSTED := s.Y_ADJUSTED
  lags := s.lags
  params := s.params
  stats := s.stats
  regionalLinear := d.regionalLinear
  pointLog := d.pointLog
  externalZ := d.externalZ
  specified := d.specified
  functional := d.functional

/-- A `UniversalKriging` object: references to its arrays; uk.py:246-510. -/
structure UKRef where
  core : OKRef
  drift : UKDriftRef

/-- What a method that looks at the attributes sees at this moment. -/
def UKRef.deref (h : Heap) (n : ℕ) (o : UKRef) : UK n := (o.core.deref h n).toUK (o.drift.deref h n)

/-- Arguments of the constructor apart from the data; uk.py:220-246: arrays by reference, `point_drift` as an array
with three columns.  The fields `params`, `pointDrift`, `pointDriftInt`, `externalDrift...`, `specifiedDrift` of
`toUKArgs` are not used. -/
structure UKRefArgs extends UKArgs where
  paramRef : ParamRef := .none
  pointDriftRef : Option Arr := none
  externalRef : Option Arr := none
  externalXRef : Option Arr := none
  externalYRef : Option Arr := none
  specifiedRef : ListArg Arr := .list []

/-- A list of one-dimensional arrays, as it is now. -/
def listArgDeref (h : Heap) : ListArg Arr → ListArg (List ℝ)
  | .notList => .notList
  | .list l => .list (l.map (Arr.list h))

/-- The arguments as values. -/
def UKRefArgs.deref (h : Heap) (a : UKRefArgs) : UKArgs :=
  { a.toUKArgs with
    params := a.paramRef.deref h
    pointDrift := a.pointDriftRef.map (Arr.wells h)
    pointDriftInt := (a.pointDriftRef.map Arr.isInt).getD false
    externalDrift := a.externalRef.map fun e => { rows := e.rows, cols := e.cols, get := e.get h }
    externalDriftX := a.externalXRef.map (Arr.list h)
    externalDriftY := a.externalYRef.map (Arr.list h)
    specifiedDrift := listArgDeref h a.specifiedRef }

/-- The arguments that concern what `UniversalKriging` has in common with `OrdinaryKriging`. -/
def UKArgs.core (a : UKArgs) : OKArgs where
  variogramModel := a.variogramModel
  params := a.params
  variogramFunction := a.variogramFunction
  nlags := a.nlags
  weight := a.weight
  anisotropyScaling := a.anisotropyScaling
  anisotropyAngle := a.anisotropyAngle
  enableStatistics := true
  coordinatesType := "euclidean"
  exactValues := a.exactValues
  pseudoInv := a.pseudoInv
  pseudoInvType := a.pseudoInvType

/-- The same, arrays by reference. -/
def UKRefArgs.core (a : UKRefArgs) : OKRefArgs := { a.toUKArgs.core with paramRef := a.paramRef }

/-- Shape check, transposition and copies of the external drift; uk.py:411-438.  `np.array(e.T)`, `np.array(e)` and
`np.array(x).flatten()` make new arrays. -/
def setupExternalRef (args : UKRefArgs) : H (Arr × Arr × Arr) :=
  match args.externalRef with
  | none => H.raise .valueError
  | some e =>
    match args.externalXRef, args.externalYRef with
    | some x, some y =>
      if e.rows ≠ y.cols ∨ e.cols ≠ x.cols then
        if e.rows = x.cols ∧ e.cols = y.cols then do
          let array ← e.T.copy
          let xs ← x.copy
          let ys ← y.copy
          return (array, xs, ys)
        else H.raise .valueError
      else do
        let array ← e.copy
        let xs ← x.copy
        let ys ← y.copy
        return (array, xs, ys)
    | _, _ => H.raise .valueError

/-- The `external_Z` part of the constructor; uk.py:410-443.  `z_scalars` is a new array filled by
`_calculate_data_point_zscalars`. -/
def setupExternalZRef (n : ℕ) (X Y : Arr) (args : UKRefArgs) : H (Option ExtRef) :=
  if "external_Z" ∈ args.driftTerms then do
    let (array, xs, ys) ← setupExternalRef args
    let h ← H.here
    let zs ← H.lift ((extGrid h array xs ys).atData (X.vec h n) (Y.vec h n))
    let scalars ← H.newList (List.ofFn zs)
    return some { array := array, xs := xs, ys := ys, scalars := scalars }
  else pure none

/-- The `point_log` part of the constructor; uk.py:445-466 -/
def setupPointLogRef (xc yc scaling angle : ℝ) (args : UKRefArgs) : H (Option Arr) :=
  if "point_log" ∈ args.driftTerms then
    match args.pointDriftRef with
    | none => H.raise .valueError
    | some p => do
      let point_log ← p.copy
      let arr ← H.new point_log.rows 3 fun _ _ => 0
      let h ← H.here
      -- self.point_log_array[:, 2] = point_log[:, 2]
      arr.assign (fun _ c => c = 2) fun r _ => point_log.get h r 2
      let S ← vstack (point_log.T.row 0) (point_log.T.row 1)
      let A ← adjustForAnisotropy2 S.T xc yc scaling angle
      let h ← H.here
      -- self.point_log_array[:, :2] = ...
      arr.assign (fun _ c => c < 2) fun r c => A.get h r c
      return some arr
  else pure none

/-- The loop over the specified drift arrays: each is copied, then its length is checked; uk.py:482-492,
uk3d.py:422-432 -/
def copyTerms (n : ℕ) : List Arr → H (List Arr)
  | [] => pure []
  | t :: ts => do
    let specified ← t.copy
    if specified.cols ≠ n then H.raise .valueError
    let rest ← copyTerms n ts
    return specified :: rest

/-- The `specified` part of the constructor; uk.py:468-493, uk3d.py:408-433 -/
def setupSpecifiedRef (n : ℕ) (driftTerms : List String) (arg : ListArg Arr) : H (Option (List Arr)) :=
  if "specified" ∈ driftTerms then
    match arg with
    | .notList => H.raise .typeError
    | .list [] => H.raise .valueError
    | .list (t :: ts) => do
      let l ← copyTerms n (t :: ts)
      return some l
  else pure none

/-- `UniversalKriging.__init__`; uk.py:220-510, for `x`, `y`, `z` of length `n` -/
def UKRef.create (n : ℕ) (env : Env) (x y z : Arr) (args : UKRefArgs) : H UKRef := do
  let core ← OKRef.create n env x y z args.core
  let ext ← setupExternalZRef n core.X_ORIG core.Y_ORIG args
  let plog ← setupPointLogRef core.XCENTER core.YCENTER core.anisotropyScaling core.anisotropyAngle args
  let spec ← setupSpecifiedRef n args.driftTerms args.specifiedRef
  let func ← H.lift (setupFunctionalTerm args.driftTerms args.functionalDrift)
  return { core := core
           drift := { regionalLinear := decide ("regional_linear" ∈ args.driftTerms)
                      pointLog := plog, externalZ := ext, specified := spec, functional := func } }

/-- `update_variogram_model`; uk.py:630-788 -/
def UKRef.update (n : ℕ) (env : Env) (o : UKRef) (u : OKRefUpdate) (h : Heap) : (Py Unit × UKRef) × Heap :=
  let r := OKRef.update n env o.core u h
  ((r.1.1, { o with core := r.1.2 }), r.2)

/-- An element of `specified_drift_arrays`. -/
inductive SpecRef
  | d1 (a : Arr)
  | d2 (a : Arr)

/-- Its buffer. -/
def SpecRef.buf : SpecRef → ℕ
  | .d1 a => a.buf
  | .d2 a => a.buf

/-- The array as it is now. -/
def SpecRef.deref (h : Heap) : SpecRef → SpecArray
  | .d1 a => .d1 (a.list h)
  | .d2 a => .d2 a.rows a.cols (a.get h)

/-- The argument `specified_drift_arrays`. -/
inductive SpecRefArg
  | none
  | notList
  | list (l : List SpecRef)

/-- The argument as it is now. -/
def SpecRefArg.deref (h : Heap) : SpecRefArg → SpecArg
  | .none => .none
  | .notList => .notList
  | .list l => .list (l.map (SpecRef.deref h))

/-- Arguments of `execute`; uk.py:1090-1098: arrays by reference. -/
structure UKExecRefs where
  toExec : ExecRefs
  spec : SpecRefArg := .none

/-- The arguments as values, at this moment. -/
def UKExecRefs.deref (h : Heap) (a : UKExecRefs) : UKExecArgs :=
  { toExec := a.toExec.deref h, spec := a.spec.deref h }

/-- One array of specified drift values, checked, transposed if necessary: a view of what was passed;
uk.py:1230-1266 -/
def checkSpecRef (style : String) (nx ny : ℕ) : SpecRef → Py Arr
  | .d1 a =>
    if style ∈ ["grid", "masked"] then .error .valueError
    else if a.cols ≠ nx then .error .valueError
    else .ok { a with rows := 1 }
  | .d2 a =>
    if style ∈ ["grid", "masked"] then
      if a.rows ≠ ny ∨ a.cols ≠ nx then
        if a.rows = nx ∧ a.cols = ny then .ok a.T
        else .error .valueError
      else .ok a
    else .error .valueError

/-- `spec_drift_grids`: views of the arrays that were passed; uk.py:1215-1280 -/
def UKRef.specGrids (o : UKRef) (args : UKExecRefs) (nx ny : ℕ) : Py (List Arr) :=
  match o.drift.specified with
  | none => .ok []
  | some arrs =>
    match args.spec with
    | .none => .error .valueError
    | .list [] => .error .valueError
    | .notList => .error .typeError
    | .list (l :: ls) => do
      let g ← (l :: ls).mapM (checkSpecRef args.toExec.style nx ny)
      if g.length ≠ arrs.length then throw .valueError
      return g

/-- `spec_vals.flatten()`, as read now. -/
def Arr.flat (h : Heap) (a : Arr) : List ℝ :=
  (List.range a.rows).flatMap fun r => (List.range a.cols).map fun c => a.get h r c

/-- `_get_kriging_matrix(n, n_withdrifts)`; uk.py:861-920: the array is made with `np.zeros` and filled. -/
def UKRef.getKrigingMatrix (n : ℕ) (o : UKRef) : H Arr := do
  let h ← H.here
  let s := o.deref h n
  let A ← H.lift s.getKrigingMatrix
  H.new (s.nWithDrifts + 1) (s.nWithDrifts + 1) fun r c =>
    if hr : r < s.nWithDrifts + 1 then if hc : c < s.nWithDrifts + 1 then A.1 ⟨r, hr⟩ ⟨c, hc⟩ else 0 else 0

/-- The call of `_exec_vector` or `_exec_loop`, which return new arrays; uk.py:1300-1318 -/
def UK.runBackend {n : ℕ} (s : UK n) (backend : String) (A : Matrix (Fin (s.nWithDrifts + 1)) (Fin (s.nWithDrifts + 1)) ℝ)
    (qs : List (UKQuery n)) (mask : List Bool) (spec : List (List ℝ)) : H (Arr × Arr) :=
  if backend = "vectorized" then newResults (Prod.fst <$> s.execVector A qs spec)
  else if backend = "loop" then newResults (Prod.fst <$> s.execLoop A qs mask spec)
  else H.raise .valueError

/-- `execute(...)`; uk.py:1090-1328.  `xy_points_original` is a new array made by `np.concatenate`: a value. -/
def UKRef.execute (n : ℕ) (o : UKRef) (args : UKExecRefs) : H ResultRef := do
  if args.toExec.style ∉ ["grid", "masked", "points"] then H.raise .valueError
  let xpts ← args.toExec.xpoints.copy
  let ypts ← args.toExec.ypoints.copy
  let a ← o.getKrigingMatrix n
  let (gx, gy, mask) ← queryPointsRef args.toExec xpts ypts
  let grids ← H.lift (o.specGrids args xpts.cols ypts.cols)
  let h ← H.here
  let orig := List.zip (gx.list h) (gy.list h)
  let (qx, qy) ← o.core.adjustQuery gx gy
  let h ← H.here
  let qs : List (UKQuery n) := (List.zipIdx (List.zip orig (List.zip (qx.list h) (qy.list h)))).map fun p =>
    { j := p.2, xo := p.1.1.1, yo := p.1.1.2, adj := ![p.1.2.1, p.1.2.2]
      bd := fun i => euclid ![p.1.2.1, p.1.2.2] (pointsOf h n o.core.X_ADJUSTED o.core.Y_ADJUSTED i) }
  let spec := grids.map (Arr.flat h)
  let s := o.deref h n
  let A := a.mat h (s.nWithDrifts + 1)
  let r ← s.runBackend args.toExec.backend A qs (mask.bools h) spec
  return { shape := if args.toExec.style ∈ ["masked", "grid"] then [ypts.cols, xpts.cols] else [xpts.cols]
           z := r.1, ss := r.2
           mask := if args.toExec.style = "masked" then some mask else none }

end
end PyKrige
