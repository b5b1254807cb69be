import Verif.Model.OK3D
import Verif.Model.UK

/-!
Model of `src/pykrige/uk3d.py` (class `UniversalKriging3D`): drift terms regional linear, specified and
functional.  `UNBIAS` is the class constant `True` (uk3d.py:203).
-/

namespace PyKrige
noncomputable section
open Matrix

/-- The attributes of a `UniversalKriging3D` object; uk3d.py:240-450. -/
structure UK3D (n : ℕ) where
  variogramModel : ModelArg
  model : Option GsModel
  exactValues : Bool
  pseudoInv : Bool
  pseudoInvType : String
  variogramFunction : VFun
  functionName : String
  X_ORIG : Fin n → ℝ
  Y_ORIG : Fin n → ℝ
  Z_ORIG : Fin n → ℝ
  VALUES : Fin n → ℝ
  XCENTER : ℝ
  YCENTER : ℝ
  ZCENTER : ℝ
  aniso : Aniso3
  X_ADJUSTED : Fin n → ℝ
  Y_ADJUSTED : Fin n → ℝ
  Z_ADJUSTED : Fin n → ℝ
  lags : List (ℝ × ℝ)
  params : List ℝ
  stats : Option Stats
  regionalLinear : Bool
  specified : Option (List (Fin n → ℝ))
  functional : Option (List (ℝ → ℝ → ℝ → ℝ))

/-- Arguments of the constructor apart from the data; uk3d.py:215-239. -/
structure UK3DArgs where
  variogramModel : ModelArg := .name "linear"
  params : ParamArg := .none
  variogramFunction : FunArg := .none
  nlags : ℕ := 6
  weight : Bool := false
  aniso : Aniso3 := {}
  driftTerms : List String := []
  specifiedDrift : ListArg (List ℝ) := .list []
  functionalDrift : ListArg (ℝ → ℝ → ℝ → ℝ) := .list []
  exactValues : BoolArg := .bool true
  pseudoInv : Bool := false
  pseudoInvType : String := "pinv"

/-- Rows of `np.vstack((X_ADJUSTED, Y_ADJUSTED, Z_ADJUSTED)).T`. -/
def UK3D.pts {n : ℕ} (s : UK3D n) (i : Fin n) : Fin 3 → ℝ :=
  ![s.X_ADJUSTED i, s.Y_ADJUSTED i, s.Z_ADJUSTED i]

/-- `UniversalKriging3D.__init__`; uk3d.py:215-450 -/
def UK3D.create {n : ℕ} (env : Env) (x y z val : Fin n → ℝ) (args : UK3DArgs) :
    Py (UK3D n) := do
  if args.pseudoInvType ∉ ["pinv", "pinvh"] then throw .valueError
  let exact ← match args.exactValues with
    | .bool b => pure b
    | .notBool => throw .valueError
  let (name, model, fArg, pArg, an) ← OK3D.resolveModel env args.variogramModel
    args.variogramFunction args.params args.aniso
  let (f, fname) ← chooseFunction name fArg
  let xc ← midrange x
  let yc ← midrange y
  let zc ← midrange z
  let adj := fun i => adjustPoint3 xc yc zc an (x i) (y i) (z i)
  let vp ← makeVariogramParameterList name pArg
  let (lags, ps) ← initializeVariogramModel env adj val name vp f args.nlags args.weight "euclidean"
  let stats ← findStatistics adj val f ps "euclidean" args.pseudoInv
  let spec ← setupSpecifiedTerm n args.driftTerms args.specifiedDrift
  let func ← setupFunctionalTerm args.driftTerms args.functionalDrift
  return { variogramModel := .name name
           model := model
           exactValues := exact
           pseudoInv := args.pseudoInv
           pseudoInvType := args.pseudoInvType
           variogramFunction := f
           functionName := fname
           X_ORIG := x
           Y_ORIG := y
           Z_ORIG := z
           VALUES := val
           XCENTER := xc
           YCENTER := yc
           ZCENTER := zc
           aniso := an
           X_ADJUSTED := fun i => adj i 0
           Y_ADJUSTED := fun i => adj i 1
           Z_ADJUSTED := fun i => adj i 2
           lags := lags
           params := ps
           stats := some stats
           regionalLinear := decide ("regional_linear" ∈ args.driftTerms)
           specified := spec
           functional := func }

open Classical in
/-- The part of `update_variogram_model` that re-adjusts the data when the anisotropy changes; uk3d.py:548-571. -/
def UK3D.reAniso {n : ℕ} (s : UK3D n) (an : Aniso3) : UK3D n :=
  if an.scalingY ≠ s.aniso.scalingY ∨ an.scalingZ ≠ s.aniso.scalingZ ∨
      an.angleX ≠ s.aniso.angleX ∨ an.angleY ≠ s.aniso.angleY ∨ an.angleZ ≠ s.aniso.angleZ then
    let adj := fun i =>
      adjustPoint3 s.XCENTER s.YCENTER s.ZCENTER an (s.X_ORIG i) (s.Y_ORIG i) (s.Z_ORIG i)
    { s with aniso := an
             X_ADJUSTED := fun i => adj i 0
             Y_ADJUSTED := fun i => adj i 1
             Z_ADJUSTED := fun i => adj i 2 }
  else s

open Classical in
/-- `update_variogram_model`; uk3d.py:452-640 -/
def UK3D.update {n : ℕ} (env : Env) (s : UK3D n) (u : Update3D) : Py Unit × UK3D n :=
  let s := { s with variogramModel := u.variogramModel, model := none }
  match OK3D.resolveModel env u.variogramModel u.variogramFunction u.params u.aniso with
  | .error e =>
    (.error e, match u.variogramModel with
      | .gstools m => { s with model := some m }
      | .name _ => s)
  | .ok (name, model, fArg, pArg, an) =>
  let s := { s with variogramModel := .name name, model := model }
  match chooseFunction name fArg with
  | .error e => (.error e, s)
  | .ok (f, fname) =>
  let s := { s with variogramFunction := f, functionName := fname }
  let s := s.reAniso an
  match makeVariogramParameterList name pArg with
  | .error e => (.error e, s)
  | .ok vp =>
  match initializeVariogramModel env s.pts s.VALUES name vp f u.nlags u.weight "euclidean" with
  | .error e => (.error e, s)
  | .ok (lags, ps) =>
  let s := { s with lags := lags, params := ps }
  match findStatistics s.pts s.VALUES f ps "euclidean" s.pseudoInv with
  | .error e => (.error e, s)
  | .ok st => (.ok (), { s with stats := some st })

/-- `n_withdrifts`; uk3d.py:986-992 -/
def UK3D.nWithDrifts {n : ℕ} (s : UK3D n) : ℕ :=
  let m := n
  let m := if s.regionalLinear then m + 3 else m
  let m := match s.specified with | some l => m + l.length | none => m
  let m := match s.functional with | some l => m + l.length | none => m
  m

theorem UK3D.le_nWithDrifts {n : ℕ} (s : UK3D n) : n ≤ s.nWithDrifts + 1 := by
  unfold UK3D.nWithDrifts; grind

/-- The drift rows/columns, one term after the other; uk3d.py:702-729 -/
def UK3D.pushDrifts {n N : ℕ} (s : UK3D n) (st : Matrix (Fin N) (Fin N) ℝ × ℕ) :
    Matrix (Fin N) (Fin N) ℝ × ℕ :=
  let st := if s.regionalLinear then
      pushDrift (pushDrift (pushDrift st s.X_ADJUSTED) s.Y_ADJUSTED) s.Z_ADJUSTED
    else st
  let st := match s.specified with
    | some l => l.foldl (fun st arr => pushDrift st arr) st
    | none => st
  let st := match s.functional with
    | some l => l.foldl (fun st (g : ℝ → ℝ → ℝ → ℝ) => pushDrift st fun k : Fin n =>
        g (s.X_ADJUSTED k) (s.Y_ADJUSTED k) (s.Z_ADJUSTED k)) st
    | none => st
  st

/-- `_get_kriging_matrix(n, n_withdrifts)`; uk3d.py:688-737, with the warning flag -/
def UK3D.getKrigingMatrix {n : ℕ} (s : UK3D n) :
    Py (Matrix (Fin (s.nWithDrifts + 1)) (Fin (s.nWithDrifts + 1)) ℝ × Bool) := do
  let γ ← s.variogramFunction s.params
  let a := npZeros (s.nWithDrifts + 1)
  let a := setBlock a n fun i j => -γ (euclid (s.pts i) (s.pts j))
  let a := fillDiagonal a 0
  let st := s.pushDrifts (a, n)
  return (setUnbias n s.nWithDrifts st.1, decide (st.2 ≠ s.nWithDrifts))

/-- One query point: index, row of `xyz_points` (order z, y, x; uk3d.py:1105-1107), distances. -/
structure UK3Query (n : ℕ) where
  j : ℕ
  xyz : Fin 3 → ℝ
  bd : Fin n → ℝ

/-- The drift entries of a row of the right-hand side in `_exec_vector`; uk3d.py:764-785 -/
def UK3D.pushRhsVector {n N : ℕ} (s : UK3D n) (spec : List (List ℝ)) (q : UK3Query n)
    (st : (Fin N → ℝ) × ℕ) : (Fin N → ℝ) × ℕ :=
  let st := if s.regionalLinear then
      pushRhs (pushRhs (pushRhs st (q.xyz 2)) (q.xyz 1)) (q.xyz 0)
    else st
  let st := match s.specified with
    | some _ => spec.foldl (fun st (vals : List ℝ) => pushRhs st (vals.getD q.j 0)) st
    | none => st
  let st := match s.functional with
    | some l => l.foldl (fun st (g : ℝ → ℝ → ℝ → ℝ) =>
        pushRhs st (g (q.xyz 2) (q.xyz 1) (q.xyz 0))) st
    | none => st
  st

open Classical in
/-- Row `j` of the right-hand side in `_exec_vector`; uk3d.py:757-787 -/
def UK3D.vectorRow {n : ℕ} (s : UK3D n) (γ : ℝ → ℝ) (zeroValue : Prop) (spec : List (List ℝ))
    (q : UK3Query n) : (Fin (s.nWithDrifts + 1) → ℝ) × Bool :=
  let b : Fin (s.nWithDrifts + 1) → ℝ := fun _ => 0
  let b := setHead b n fun k => -γ (q.bd k)
  let b := if zeroValue ∧ s.exactValues = true then setWhere b n (fun k => |q.bd k| ≤ eps) 0 else b
  let st := s.pushRhsVector spec q (b, n)
  (setAt st.1 s.nWithDrifts 1, decide (st.2 ≠ s.nWithDrifts))

/-- `_exec_vector(...)`; uk3d.py:739-811 -/
def UK3D.execVector {n : ℕ} (s : UK3D n)
    (a : Matrix (Fin (s.nWithDrifts + 1)) (Fin (s.nWithDrifts + 1)) ℝ)
    (qs : List (UK3Query n)) (spec : List (List ℝ)) : Py (List (ℝ × ℝ) × Bool) := do
  let a_inv ← invertPython s.pseudoInv s.pseudoInvType a
  let zeroValue : Prop := ∃ q ∈ qs, ∃ k, |q.bd k| ≤ eps
  let γ ← s.variogramFunction s.params
  let b := qs.map fun q => s.vectorRow γ zeroValue spec q
  return (b.map fun b =>
    let x := a_inv *ᵥ b.1
    (∑ k : Fin n, x (k.castLE s.le_nWithDrifts) * s.VALUES k, ∑ k, x k * -b.1 k),
    b.any Prod.snd)

/-- The drift entries of the right-hand side in `_exec_loop`; uk3d.py:840-869 -/
def UK3D.pushRhsLoop {n N : ℕ} (s : UK3D n) (spec : List (List ℝ)) (q : UK3Query n)
    (st : (Fin N → ℝ) × ℕ) : Py ((Fin N → ℝ) × ℕ) := do
  let st := if s.regionalLinear then
      pushRhs (pushRhs (pushRhs st (q.xyz 2)) (q.xyz 1)) (q.xyz 0)
    else st
  let st ← match s.specified with
    | some _ => spec.foldlM (fun st (vals : List ℝ) => do
        let v ← pyGet vals st.2
        return pushRhs st v) st
    | none => pure st
  let st := match s.functional with
    | some l => l.foldl (fun st (g : ℝ → ℝ → ℝ → ℝ) =>
        pushRhs st (g (q.xyz 2) (q.xyz 1) (q.xyz 0))) st
    | none => st
  return st

open Classical in
/-- Body of the loop of `_exec_loop`; uk3d.py:828-873 (`spec_vals.flatten()[i]` at line 857) -/
def UK3D.loopBody {n : ℕ} (s : UK3D n)
    (a_inv : Matrix (Fin (s.nWithDrifts + 1)) (Fin (s.nWithDrifts + 1)) ℝ)
    (spec : List (List ℝ)) (q : UK3Query n) : Py ((ℝ × ℝ) × Bool) := do
  let zeroValue : Prop := ∃ k, |q.bd k| ≤ eps
  let γ ← s.variogramFunction s.params
  let b : Fin (s.nWithDrifts + 1) → ℝ := fun _ => 0
  let b := setHead b n fun k => -γ (q.bd k)
  let b := if zeroValue ∧ s.exactValues = true then setWhere b n (fun k => |q.bd k| ≤ eps) 0 else b
  let st ← s.pushRhsLoop spec q (b, n)
  let b := setAt st.1 s.nWithDrifts 1
  let x := a_inv *ᵥ b
  return ((∑ k : Fin n, x (k.castLE s.le_nWithDrifts) * s.VALUES k, ∑ k, x k * -b k),
    decide (st.2 ≠ s.nWithDrifts))

/-- `_exec_loop(...)`; uk3d.py:813-875 -/
def UK3D.execLoop {n : ℕ} (s : UK3D n)
    (a : Matrix (Fin (s.nWithDrifts + 1)) (Fin (s.nWithDrifts + 1)) ℝ)
    (qs : List (UK3Query n)) (mask : List Bool) (spec : List (List ℝ)) :
    Py (List (ℝ × ℝ) × Bool) := do
  let a_inv ← invertPython s.pseudoInv s.pseudoInvType a
  let l ← (qs.zip mask).mapM fun p =>
    if p.2 then pure ((0, 0), false) else s.loopBody a_inv spec p.1
  return (l.map Prod.fst, l.any Prod.snd)

/-- An array of specified drift values at the query points of a 3D class: one-dimensional,
three-dimensional, or of another dimension. -/
inductive SpecArray3
  | d1 (l : List ℝ)
  | d2
  | d3 (d0 d1 d2 : ℕ) (get : ℕ → ℕ → ℕ → ℝ)

/-- The argument `specified_drift_arrays`. -/
inductive SpecArg3
  | none
  | notList
  | list (l : List SpecArray3)

/-- Arguments of `execute`; uk3d.py:877-887 -/
structure UK3DExecArgs where
  toExec : ExecArgs3
  spec : SpecArg3 := .none

/-- One array of specified drift values, checked, axes swapped if necessary, flattened;
uk3d.py:1047-1083 -/
def checkSpec3 (style : String) (nx ny nz : ℕ) : SpecArray3 → Py (List ℝ)
  | .d1 l =>
    if style ∈ ["grid", "masked"] then .error .valueError
    else if l.length ≠ nx then .error .valueError
    else .ok l
  | .d2 => .error .valueError
  | .d3 d0 d1 d2 get =>
    if style ∈ ["grid", "masked"] then
      if d0 ≠ nz ∨ d1 ≠ ny ∨ d2 ≠ nx then
        if d0 = nx ∧ d2 = nz ∧ d1 = ny then
          .ok ((List.range nz).flatMap fun i => (List.range ny).flatMap fun j =>
            (List.range nx).map fun k => get k j i)
        else .error .valueError
      else .ok ((List.range nz).flatMap fun i => (List.range ny).flatMap fun j =>
            (List.range nx).map fun k => get i j k)
    else .error .valueError

/-- `spec_drift_grids`; uk3d.py:1031-1097 -/
def UK3D.specGrids {n : ℕ} (s : UK3D n) (args : UK3DExecArgs) : Py (List (List ℝ)) :=
  match s.specified with
  | none => .ok []
  | some arrs =>
    match args.spec with
    | .none => .error .valueError
    | .list [] => .error .valueError
    | .notList => .error .typeError
    | .list (l :: ls) => do
      let g ← (l :: ls).mapM (checkSpec3 args.toExec.style args.toExec.xpoints.vals.length
        args.toExec.ypoints.vals.length args.toExec.zpoints.vals.length)
      if g.length ≠ arrs.length then throw .valueError
      return g

/-- Adjusted coordinates of a query point; uk3d.py:1099-1104 -/
def UK3D.adjustPoint {n : ℕ} (s : UK3D n) (p : ℝ × ℝ × ℝ) : Fin 3 → ℝ :=
  adjustPoint3 s.XCENTER s.YCENTER s.ZCENTER s.aniso p.1 p.2.1 p.2.2

/-- The query points with index, row of `xyz_points` and distances; uk3d.py:1099-1120 -/
def UK3D.queries {n : ℕ} (s : UK3D n) (pts : List (ℝ × ℝ × ℝ)) : List (UK3Query n) :=
  pts.zipIdx.map fun p =>
    { j := p.2, xyz := zyx (s.adjustPoint p.1)
      bd := fun i => euclid (zyx (s.adjustPoint p.1)) (zyx (s.pts i)) }

/-- `execute(...)` with the warning flag; uk3d.py:877-1146.  (With style 'points' a length mismatch
that escapes the explicit check is raised by `np.vstack` only after the specified-drift checks; both
are `ValueError`s or the drift check's `TypeError`, so the order is immaterial for what is returned.) -/
def UK3D.executeW {n : ℕ} (s : UK3D n) (args : UK3DExecArgs) : Py (ExecResult × Bool) := do
  if args.toExec.style ∉ ["grid", "masked", "points"] then throw .valueError
  let (a, wa) ← s.getKrigingMatrix
  let (pts, mask) ← queryPoints3 args.toExec
  let spec ← s.specGrids args
  if args.toExec.xpoints.isInt && args.toExec.ypoints.isInt && args.toExec.zpoints.isInt then
    throw .castingError
  let qs := s.queries pts
  let (res, wb) ←
    if args.toExec.backend = "vectorized" then s.execVector a qs spec
    else if args.toExec.backend = "loop" then s.execLoop a qs mask spec
    else throw .valueError
  return ({ shape := resultShape3 args.toExec
            z := applyMask args.toExec.style mask (res.map Prod.fst)
            ss := applyMask args.toExec.style mask (res.map Prod.snd) }, wa || wb)

/-- `execute(...)`; uk3d.py:877-1146 -/
def UK3D.execute {n : ℕ} (s : UK3D n) (args : UK3DExecArgs) : Py ExecResult :=
  Prod.fst <$> s.executeW args

end
end PyKrige
