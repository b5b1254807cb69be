import Verif.Model.Nan
import Verif.Model.UK3D

/-!
# UniversalKriging3D: values that may be nan

The functions of `Model/UK3D.lean` that touch the data values, with values that may be nan (see `Model/Nan.lean`).
-/

namespace PyKrige
noncomputable section
open Matrix

/-- The object: `VALUES` and the statistics may hold nan; the fields `VALUES` and `stats` of `obj` are placeholders
(0, `none`) and are never read. -/
structure NanUK3D (n : ℕ) where
  obj : UK3D n
  Z : Fin n → Option ℝ
  stats : Option NanStats

/-- `UniversalKriging3D.__init__`; uk3d.py:215-450 -/
def NanUK3D.create {n : ℕ} (env : Env) (x y z : Fin n → ℝ) (val : Fin n → Option ℝ) (args : UK3DArgs) :
    Py (NanUK3D n) := do
  if args.pseudoInvType ∉ ["pinv", "pinvh"] then throw .valueError
  let exact ← match args.exactValues with
    | .bool b => pure b
    | .notBool => throw .valueError
  let (name, model, fArg, pArg, an) ← OK3D.resolveModel env args.variogramModel
    args.variogramFunction args.params args.aniso
  let (f, fname) ← chooseFunction name fArg
  let xc ← midrange x
  let yc ← midrange y
  let zc ← midrange z
  let adj := fun i => adjustPoint3 xc yc zc an (x i) (y i) (z i)
  let vp ← makeVariogramParameterList name pArg
  let (lags, ps) ← initializeVariogramModelNan env adj val name vp f args.nlags args.weight "euclidean"
  let stats ← findStatisticsNan adj val f ps "euclidean" args.pseudoInv
  let spec ← setupSpecifiedTerm n args.driftTerms args.specifiedDrift
  let func ← setupFunctionalTerm args.driftTerms args.functionalDrift
  return { obj :=
             { variogramModel := .name name
               model := model
               exactValues := exact
               pseudoInv := args.pseudoInv
               pseudoInvType := args.pseudoInvType
               variogramFunction := f
               functionName := fname
               X_ORIG := x
               Y_ORIG := y
               Z_ORIG := z
               VALUES := fun _ => 0
               XCENTER := xc
               YCENTER := yc
               ZCENTER := zc
               aniso := an
               X_ADJUSTED := fun i => adj i 0
               Y_ADJUSTED := fun i => adj i 1
               Z_ADJUSTED := fun i => adj i 2
               lags := lags
               params := ps
               stats := none
               regionalLinear := decide ("regional_linear" ∈ args.driftTerms)
               specified := spec
               functional := func }
           Z := val
           stats := some stats }

/-- `_exec_vector(...)`; uk3d.py:739-811 -/
def NanUK3D.execVector {n : ℕ} (t : NanUK3D n)
    (a : Matrix (Fin (t.obj.nWithDrifts + 1)) (Fin (t.obj.nWithDrifts + 1)) ℝ)
    (qs : List (UK3Query n)) (spec : List (List ℝ)) : Py (List (Option ℝ × ℝ) × Bool) := do
  let a_inv ← invertPython t.obj.pseudoInv t.obj.pseudoInvType a
  let zeroValue : Prop := ∃ q ∈ qs, ∃ k, |q.bd k| ≤ eps
  let γ ← t.obj.variogramFunction t.obj.params
  let b := qs.map fun q => t.obj.vectorRow γ zeroValue spec q
  return (b.map fun b =>
    let x := a_inv *ᵥ b.1
    (nanDot (fun k : Fin n => x (k.castLE t.obj.le_nWithDrifts)) t.Z, ∑ k, x k * -b.1 k),
    b.any Prod.snd)

open Classical in
/-- Body of the loop of `_exec_loop`; uk3d.py:828-873 (`spec_vals.flatten()[i]` at line 857) -/
def NanUK3D.loopBody {n : ℕ} (t : NanUK3D n)
    (a_inv : Matrix (Fin (t.obj.nWithDrifts + 1)) (Fin (t.obj.nWithDrifts + 1)) ℝ)
    (spec : List (List ℝ)) (q : UK3Query n) : Py ((Option ℝ × ℝ) × Bool) := do
  let zeroValue : Prop := ∃ k, |q.bd k| ≤ eps
  let γ ← t.obj.variogramFunction t.obj.params
  let b : Fin (t.obj.nWithDrifts + 1) → ℝ := fun _ => 0
  let b := setHead b n fun k => -γ (q.bd k)
  let b := if zeroValue ∧ t.obj.exactValues = true then setWhere b n (fun k => |q.bd k| ≤ eps) 0 else b
  let st ← t.obj.pushRhsLoop spec q (b, n)
  let b := setAt st.1 t.obj.nWithDrifts 1
  let x := a_inv *ᵥ b
  return ((nanDot (fun k : Fin n => x (k.castLE t.obj.le_nWithDrifts)) t.Z, ∑ k, x k * -b k),
    decide (st.2 ≠ t.obj.nWithDrifts))

/-- `_exec_loop(...)`; uk3d.py:813-875 -/
def NanUK3D.execLoop {n : ℕ} (t : NanUK3D n)
    (a : Matrix (Fin (t.obj.nWithDrifts + 1)) (Fin (t.obj.nWithDrifts + 1)) ℝ)
    (qs : List (UK3Query n)) (mask : List Bool) (spec : List (List ℝ)) :
    Py (List (Option ℝ × ℝ) × Bool) := do
  let a_inv ← invertPython t.obj.pseudoInv t.obj.pseudoInvType a
  let l ← (qs.zip mask).mapM fun p =>
    if p.2 then pure ((some 0, 0), false) else t.loopBody a_inv spec p.1
  return (l.map Prod.fst, l.any Prod.snd)

/-- `execute(...)` with the warning flag; uk3d.py:877-1146.  (With style 'points' a length mismatch
that escapes the explicit check is raised by `np.vstack` only after the specified-drift checks; both
are `ValueError`s or the drift check's `TypeError`, so the order is immaterial for what is returned.) -/
def NanUK3D.executeW {n : ℕ} (t : NanUK3D n) (args : UK3DExecArgs) : Py (NanResult × Bool) := do
  if args.toExec.style ∉ ["grid", "masked", "points"] then throw .valueError
  let (a, wa) ← t.obj.getKrigingMatrix
  let (pts, mask) ← queryPoints3 args.toExec
  let spec ← t.obj.specGrids args
  if args.toExec.xpoints.isInt && args.toExec.ypoints.isInt && args.toExec.zpoints.isInt then
    throw .castingError
  let qs := t.obj.queries pts
  let (res, wb) ←
    if args.toExec.backend = "vectorized" then t.execVector a qs spec
    else if args.toExec.backend = "loop" then t.execLoop a qs mask spec
    else throw .valueError
  return ({ shape := resultShape3 args.toExec
            z := applyMaskNan args.toExec.style mask (res.map Prod.fst)
            ss := applyMask args.toExec.style mask (res.map Prod.snd) }, wa || wb)

/-- `execute(...)`; uk3d.py:877-1146 -/
def NanUK3D.execute {n : ℕ} (t : NanUK3D n) (args : UK3DExecArgs) : Py NanResult :=
  Prod.fst <$> t.executeW args

end
end PyKrige
