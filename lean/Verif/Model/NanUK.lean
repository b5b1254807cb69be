import Verif.Model.Nan
import Verif.Model.UK

/-!
# UniversalKriging: values that may be nan

The functions of `Model/UK.lean` that touch the data values, with values that may be nan (see `Model/Nan.lean`).
-/

namespace PyKrige
noncomputable section
open Matrix

/-- The object: `Z` and the statistics may hold nan; the fields `Z` and `stats` of `obj` are placeholders
(0, `none`) and are never read. -/
structure NanUK (n : ℕ) where
  obj : UK n
  Z : Fin n → Option ℝ
  stats : Option NanStats

/-- `UniversalKriging.__init__`; uk.py:220-510 -/
def NanUK.create {n : ℕ} (env : Env) (x y : Fin n → ℝ) (z : Fin n → Option ℝ) (args : UKArgs) : Py (NanUK n) := do
  if args.pseudoInvType ∉ ["pinv", "pinvh"] then throw .valueError
  let exact ← match args.exactValues with
    | .bool b => pure b
    | .notBool => throw .valueError
  let (name, model, fArg, pArg, scaling, angle) ← UK.resolveModel env
    args.variogramModel args.variogramFunction args.params args.anisotropyScaling
    args.anisotropyAngle
  let (f, fname) ← chooseFunction name fArg
  let xc ← midrange x
  let yc ← midrange y
  let adj := adjustData2 x y xc yc scaling angle
  let vp ← makeVariogramParameterList name pArg
  let (lags, ps) ← initializeVariogramModelNan env adj z name vp f args.nlags args.weight "euclidean"
  let stats ← findStatisticsNan adj z f ps "euclidean" args.pseudoInv
  let ext ← setupExternalZ x y args
  let plog ← setupPointLog xc yc scaling angle args
  let spec ← setupSpecifiedTerm n args.driftTerms args.specifiedDrift
  let func ← setupFunctionalTerm args.driftTerms args.functionalDrift
  return { obj :=
             { variogramModel := .name name
               model := model
               exactValues := exact
               pseudoInv := args.pseudoInv
               pseudoInvType := args.pseudoInvType
               variogramFunction := f
               functionName := fname
               X_ORIG := x
               Y_ORIG := y
               Z := fun _ => 0
               XCENTER := xc
               YCENTER := yc
               anisotropyScaling := scaling
               anisotropyAngle := angle
               X_ADJUSTED := fun i => adj i 0
               Y_ADJUSTED := fun i => adj i 1
               lags := lags
               params := ps
               stats := none
               regionalLinear := decide ("regional_linear" ∈ args.driftTerms)
               pointLog := plog
               externalZ := ext
               specified := spec
               functional := func }
           Z := z
           stats := some stats }

/-- `_exec_vector(...)`; uk.py:922-1009.  The external drift is evaluated at *all* points, masked or
not. -/
def NanUK.execVector {n : ℕ} (t : NanUK n)
    (a : Matrix (Fin (t.obj.nWithDrifts + 1)) (Fin (t.obj.nWithDrifts + 1)) ℝ)
    (qs : List (UKQuery n)) (spec : List (List ℝ)) : Py (List (Option ℝ × ℝ) × Bool) := do
  let a_inv ← invertPython t.obj.pseudoInv t.obj.pseudoInvType a
  let zeroValue : Prop := ∃ q ∈ qs, ∃ k, |q.bd k| ≤ eps
  let γ ← t.obj.variogramFunction t.obj.params
  let exts ← qs.mapM t.obj.extAt
  let b := List.zipWith (fun q zext => t.obj.vectorRow γ zeroValue spec zext q) qs exts
  return (b.map fun b =>
    let x := a_inv *ᵥ b.1
    (nanDot (fun k : Fin n => x (k.castLE t.obj.le_nWithDrifts)) t.Z, ∑ k, x k * -b.1 k),
    b.any Prod.snd)

open Classical in
/-- Body of the loop of `_exec_loop` at an unmasked point; uk.py:1029-1086.  Note
`spec_vals.flatten()[i]` with the *row* index `i` (uk.py:1070). -/
def NanUK.loopBody {n : ℕ} (t : NanUK n)
    (a_inv : Matrix (Fin (t.obj.nWithDrifts + 1)) (Fin (t.obj.nWithDrifts + 1)) ℝ)
    (spec : List (List ℝ)) (q : UKQuery n) : Py ((Option ℝ × ℝ) × Bool) := do
  let zeroValue : Prop := ∃ k, |q.bd k| ≤ eps
  let γ ← t.obj.variogramFunction t.obj.params
  let b : Fin (t.obj.nWithDrifts + 1) → ℝ := fun _ => 0
  let b := setHead b n fun k => -γ (q.bd k)
  let b := if zeroValue ∧ t.obj.exactValues = true then setWhere b n (fun k => |q.bd k| ≤ eps) 0 else b
  let st ← t.obj.pushRhsLoop spec q (b, n)
  let b := setAt st.1 t.obj.nWithDrifts 1
  let x := a_inv *ᵥ b
  return ((nanDot (fun k : Fin n => x (k.castLE t.obj.le_nWithDrifts)) t.Z, ∑ k, x k * -b k),
    decide (st.2 ≠ t.obj.nWithDrifts))

/-- `_exec_loop(...)`; uk.py:1011-1088 -/
def NanUK.execLoop {n : ℕ} (t : NanUK n)
    (a : Matrix (Fin (t.obj.nWithDrifts + 1)) (Fin (t.obj.nWithDrifts + 1)) ℝ)
    (qs : List (UKQuery n)) (mask : List Bool) (spec : List (List ℝ)) :
    Py (List (Option ℝ × ℝ) × Bool) := do
  let a_inv ← invertPython t.obj.pseudoInv t.obj.pseudoInvType a
  let l ← (qs.zip mask).mapM fun p =>
    if p.2 then pure ((some 0, 0), false) else t.loopBody a_inv spec p.1
  return (l.map Prod.fst, l.any Prod.snd)

/-- `execute(...)` together with "was one of the 'Kriging may fail' warnings issued?";
uk.py:1090-1328 -/
def NanUK.executeW {n : ℕ} (t : NanUK n) (args : UKExecArgs) : Py (NanResult × Bool) := do
  if args.toExec.style ∉ ["grid", "masked", "points"] then throw .valueError
  let (a, wa) ← t.obj.getKrigingMatrix
  let (pts, mask) ← queryPoints args.toExec
  let spec ← t.obj.specGrids args
  if args.toExec.xpoints.isInt && args.toExec.ypoints.isInt then throw .castingError
  let qs := t.obj.queries pts
  let (res, wb) ←
    if args.toExec.backend = "vectorized" then t.execVector a qs spec
    else if args.toExec.backend = "loop" then t.execLoop a qs mask spec
    else throw .valueError
  return ({ shape := resultShape args.toExec
            z := applyMaskNan args.toExec.style mask (res.map Prod.fst)
            ss := applyMask args.toExec.style mask (res.map Prod.snd) }, wa || wb)

/-- `execute(...)`; uk.py:1090-1328 -/
def NanUK.execute {n : ℕ} (t : NanUK n) (args : UKExecArgs) : Py NanResult := Prod.fst <$> t.executeW args

end
end PyKrige
