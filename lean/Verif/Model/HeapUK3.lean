import Verif.Model.Heap3
import Verif.Model.HeapUK
import Verif.Model.UK3D

/-!
`UniversalKriging3D` (`src/pykrige/uk3d.py`) with arrays by reference.  What it shares with `OrdinaryKriging3D` (the
data arrays, the variogram and `update_variogram_model`, which is the same code) is the component `core`;
`UK3D.create_eq` and `OK3D.update_toUK` (`Lemmas/ToUK3.lean`) prove that this is the model of `Model/UK3D.lean`.
Kriging matrix, right-hand sides and drift functions: as in `Model/HeapUK.lean`.
-/

namespace PyKrige
noncomputable section
open Matrix

/-- The drift attributes as values; uk3d.py:401-450. -/
structure UK3DDrift (n : ℕ) where
  regionalLinear : Bool
  specified : Option (List (Fin n → ℝ))
  functional : Option (List (ℝ → ℝ → ℝ → ℝ))

/-- The drift attributes; uk3d.py:401-450. -/
structure UK3DDriftRef where
  regionalLinear : Bool
  /-- `specified_drift_data_arrays` -/
  specified : Option (List Arr)
  functional : Option (List (ℝ → ℝ → ℝ → ℝ))

/-- The drift attributes as they are now. -/
def UK3DDriftRef.deref (h : Heap) (n : ℕ) (d : UK3DDriftRef) : UK3DDrift n where
  regionalLinear := d.regionalLinear
  specified := d.specified.map fun l => l.map fun a => a.vec h n
  functional := d.functional

/-- A `UniversalKriging3D` object from what it has in common with an `OrdinaryKriging3D` object and its drift. -/
def OK3D.toUK {n : ℕ} (s : OK3D n) (d : UK3DDrift n) : UK3D n where
  variogramModel := s.variogramModel
  model := s.model
  exactValues := s.exactValues
  pseudoInv := s.pseudoInv
  pseudoInvType := s.pseudoInvType
  variogramFunction := s.variogramFunction
  functionName := s.functionName
  X_ORIG := s.X_ORIG
  Y_ORIG := s.Y_ORIG
  Z_ORIG := s.Z_ORIG
  VALUES := s.VALUES
  XCENTER := s.XCENTER
  YCENTER := s.YCENTER
  ZCENTER := s.ZCENTER
  aniso := s.aniso
  X_ADJUSTED := s.X_ADJUSTED
  Y_ADJUSTED := s.Y_ADJUSTED
  Z_ADJUSTED := s.Z_ADJUSTED
  lags := s.lags
  params := s.params
  stats := s.stats
  regionalLinear := d.regionalLinear
  specified := d.specified
  functional := d.functional

/-- A `UniversalKriging3D` object: references to its arrays; uk3d.py:240-450. -/
structure UK3DRef where
  core : OK3DRef
  drift : UK3DDriftRef

/-- What a method that looks at the attributes sees at this moment. -/
def UK3DRef.deref (h : Heap) (n : ℕ) (o : UK3DRef) : UK3D n := (o.core.deref h n).toUK (o.drift.deref h n)

/-- Arguments of the constructor apart from the data; uk3d.py:215-239: arrays by reference.  The fields `params` and
`specifiedDrift` of `toUK3DArgs` are not used. -/
structure UK3DRefArgs extends UK3DArgs where
  paramRef : ParamRef := .none
  specifiedRef : ListArg Arr := .list []

/-- The arguments as values. -/
def UK3DRefArgs.deref (h : Heap) (a : UK3DRefArgs) : UK3DArgs :=
  { a.toUK3DArgs with params := a.paramRef.deref h, specifiedDrift := listArgDeref h a.specifiedRef }

/-- The arguments that concern what `UniversalKriging3D` has in common with `OrdinaryKriging3D`. -/
def UK3DArgs.core (a : UK3DArgs) : OK3DArgs where
  variogramModel := a.variogramModel
  params := a.params
  variogramFunction := a.variogramFunction
  nlags := a.nlags
  weight := a.weight
  aniso := a.aniso
  exactValues := a.exactValues
  pseudoInv := a.pseudoInv
  pseudoInvType := a.pseudoInvType

/-- The same, arrays by reference. -/
def UK3DRefArgs.core (a : UK3DRefArgs) : OK3DRefArgs := { a.toUK3DArgs.core with paramRef := a.paramRef }

/-- `UniversalKriging3D.__init__`; uk3d.py:215-450, for arrays of length `n` -/
def UK3DRef.create (n : ℕ) (env : Env) (x y z val : Arr) (args : UK3DRefArgs) : H UK3DRef := do
  let core ← OK3DRef.create n env x y z val args.core
  let spec ← setupSpecifiedRef n args.driftTerms args.specifiedRef
  let func ← H.lift (setupFunctionalTerm args.driftTerms args.functionalDrift)
  return { core := core
           drift := { regionalLinear := decide ("regional_linear" ∈ args.driftTerms)
                      specified := spec, functional := func } }

/-- `update_variogram_model`; uk3d.py:452-640 -/
def UK3DRef.update (n : ℕ) (env : Env) (o : UK3DRef) (u : Update3DRef) (h : Heap) : (Py Unit × UK3DRef) × Heap :=
  let r := OK3DRef.update n env o.core u h
  ((r.1.1, { o with core := r.1.2 }), r.2)

/-- An element of `specified_drift_arrays`. -/
inductive SpecRef3
  | d1 (a : Arr)
  | d2 (buf : ℕ)
  | d3 (a : Arr3)

/-- Its buffer. -/
def SpecRef3.buf : SpecRef3 → ℕ
  | .d1 a => a.buf
  | .d2 b => b
  | .d3 a => a.buf

/-- The array as it is now. -/
def SpecRef3.deref (h : Heap) : SpecRef3 → SpecArray3
  | .d1 a => .d1 (a.list h)
  | .d2 _ => .d2
  | .d3 a => .d3 a.d0 a.d1 a.d2 (a.get h)

/-- The argument `specified_drift_arrays`. -/
inductive SpecRefArg3
  | none
  | notList
  | list (l : List SpecRef3)

/-- The argument as it is now. -/
def SpecRefArg3.deref (h : Heap) : SpecRefArg3 → SpecArg3
  | .none => .none
  | .notList => .notList
  | .list l => .list (l.map (SpecRef3.deref h))

/-- Arguments of `execute`; uk3d.py:877-887: arrays by reference. -/
structure UK3DExecRefs where
  toExec : ExecRefs3
  spec : SpecRefArg3 := .none

/-- The arguments as values, at this moment. -/
def UK3DExecRefs.deref (h : Heap) (a : UK3DExecRefs) : UK3DExecArgs :=
  { toExec := a.toExec.deref h, spec := a.spec.deref h }

/-- One array of specified drift values, checked, axes swapped if necessary: a view of what was passed;
uk3d.py:1047-1087 -/
def checkSpecRef3 (style : String) (nx ny nz : ℕ) : SpecRef3 → Py SpecRef3
  | .d1 a =>
    if style ∈ ["grid", "masked"] then .error .valueError
    else if a.cols ≠ nx then .error .valueError
    else .ok (.d1 a)
  | .d2 _ => .error .valueError
  | .d3 a =>
    if style ∈ ["grid", "masked"] then
      if a.d0 ≠ nz ∨ a.d1 ≠ ny ∨ a.d2 ≠ nx then
        if a.d0 = nx ∧ a.d2 = nz ∧ a.d1 = ny then .ok (.d3 a.swap)
        else .error .valueError
      else .ok (.d3 a)
    else .error .valueError

/-- `spec_drift_grids`: views of the arrays that were passed; uk3d.py:1031-1097 -/
def UK3DRef.specGrids (o : UK3DRef) (args : UK3DExecRefs) (nx ny nz : ℕ) : Py (List SpecRef3) :=
  match o.drift.specified with
  | none => .ok []
  | some arrs =>
    match args.spec with
    | .none => .error .valueError
    | .list [] => .error .valueError
    | .notList => .error .typeError
    | .list (l :: ls) => do
      let g ← (l :: ls).mapM (checkSpecRef3 args.toExec.style nx ny nz)
      if g.length ≠ arrs.length then throw .valueError
      return g

/-- `spec_vals.flatten()`, as read now. -/
def SpecRef3.flat (h : Heap) : SpecRef3 → List ℝ
  | .d1 a => a.list h
  | .d2 _ => []
  | .d3 a => (List.range a.d0).flatMap fun i => (List.range a.d1).flatMap fun j =>
      (List.range a.d2).map fun k => a.get h i j k

/-- `_get_kriging_matrix(n, n_withdrifts)`; uk3d.py:688-737: the array is made with `np.zeros` and filled. -/
def UK3DRef.getKrigingMatrix (n : ℕ) (o : UK3DRef) : H Arr := do
  let h ← H.here
  let s := o.deref h n
  let A ← H.lift s.getKrigingMatrix
  H.new (s.nWithDrifts + 1) (s.nWithDrifts + 1) fun r c =>
    if hr : r < s.nWithDrifts + 1 then if hc : c < s.nWithDrifts + 1 then A.1 ⟨r, hr⟩ ⟨c, hc⟩ else 0 else 0

/-- The call of `_exec_vector` or `_exec_loop`, which return new arrays; uk3d.py:1121-1135 -/
def UK3D.runBackend {n : ℕ} (s : UK3D n) (backend : String)
    (A : Matrix (Fin (s.nWithDrifts + 1)) (Fin (s.nWithDrifts + 1)) ℝ)
    (qs : List (UK3Query n)) (mask : List Bool) (spec : List (List ℝ)) : H (Arr × Arr) :=
  if backend = "vectorized" then newResults (Prod.fst <$> s.execVector A qs spec)
  else if backend = "loop" then newResults (Prod.fst <$> s.execLoop A qs mask spec)
  else H.raise .valueError

/-- `execute(...)`; uk3d.py:877-1146.  `xyz_points` and `xyz_data` are new arrays made by `np.concatenate`: values. -/
def UK3DRef.execute (n : ℕ) (o : UK3DRef) (args : UK3DExecRefs) : H ResultRef := do
  if args.toExec.style ∉ ["grid", "masked", "points"] then H.raise .valueError
  let xpts ← args.toExec.xpoints.copy
  let ypts ← args.toExec.ypoints.copy
  let zpts ← args.toExec.zpoints.copy
  let a ← o.getKrigingMatrix n
  let (g, mask) ← queryPoints3Ref args.toExec xpts ypts zpts
  let grids ← H.lift (o.specGrids args xpts.cols ypts.cols zpts.cols)
  let A ← adjustQuery3 o.core.XCENTER o.core.YCENTER o.core.ZCENTER o.core.aniso g
  let h ← H.here
  let s := o.deref h n
  let qs : List (UK3Query n) := (A.rows3 h).zipIdx.map fun p =>
    { j := p.2, xyz := zyx p.1, bd := fun i => euclid (zyx p.1) (zyx (s.pts i)) }
  let r ← s.runBackend args.toExec.backend (a.mat h (s.nWithDrifts + 1)) qs (mask.bools h) (grids.map (SpecRef3.flat h))
  return { shape := if args.toExec.style ∈ ["masked", "grid"] then [zpts.cols, ypts.cols, xpts.cols] else [xpts.cols]
           z := r.1, ss := r.2
           mask := if args.toExec.style = "masked" then some mask else none }

end
end PyKrige
