import Verif.Model.OK

/-!
Model of `src/pykrige/uk.py` (class `UniversalKriging`, 2D).  `UNBIAS` is the class constant `True`
(uk.py:208).
-/

namespace PyKrige
noncomputable section
open Matrix

/-- External drift grid after the constructor's shape check/transposition: axes `xs`, `ys` and array
`z[row = y, column = x]`; uk.py:421-438 -/
structure ExtDrift where
  nx : ℕ
  ny : ℕ
  xs : Fin nx → ℝ
  ys : Fin ny → ℝ
  z : Fin ny → Fin nx → ℝ

open Classical in
/-- `np.amin(np.where(arr >= v)[0])`: first index with `arr[i] >= v` (`ValueError` if none). -/
def firstGe {k : ℕ} (arr : Fin k → ℝ) (v : ℝ) : Py (Fin k) :=
  match ((List.finRange k).filter fun i => arr i ≥ v).head? with
  | some i => .ok i
  | none => .error .valueError

open Classical in
/-- `np.amax(np.where(arr <= v)[0])`: last index with `arr[i] <= v` (`ValueError` if none). -/
def lastLe {k : ℕ} (arr : Fin k → ℝ) (v : ℝ) : Py (Fin k) :=
  match ((List.finRange k).filter fun i => arr i ≤ v).getLast? with
  | some i => .ok i
  | none => .error .valueError

open Classical in
/-- One point of `_calculate_data_point_zscalars`; uk.py:530-618 -/
def ExtDrift.zScalar (e : ExtDrift) (xn yn : ℝ) : Py ℝ := do
  let mxx ← amax (List.ofFn e.xs)
  let mnx ← amin (List.ofFn e.xs)
  let mxy ← amax (List.ofFn e.ys)
  let mny ← amin (List.ofFn e.ys)
  if xn > mxx ∨ xn < mnx ∨ yn > mxy ∨ yn < mny then throw .valueError
  let x2 ← firstGe e.xs xn
  let x1 ← lastLe e.xs xn
  let y2 ← firstGe e.ys yn
  let y1 ← lastLe e.ys yn
  if y1 = y2 then
    if x1 = x2 then return e.z y1 x1
    else
      return (e.z y1 x1 * (e.xs x2 - xn) + e.z y2 x2 * (xn - e.xs x1)) / (e.xs x2 - e.xs x1)
  else if x1 = x2 then
    if y1 = y2 then return e.z y1 x1
    else
      return (e.z y1 x1 * (e.ys y2 - yn) + e.z y2 x2 * (yn - e.ys y1)) / (e.ys y2 - e.ys y1)
  else
    return (e.z y1 x1 * (e.xs x2 - xn) * (e.ys y2 - yn)
        + e.z y1 x2 * (xn - e.xs x1) * (e.ys y2 - yn)
        + e.z y2 x1 * (e.xs x2 - xn) * (yn - e.ys y1)
        + e.z y2 x2 * (xn - e.xs x1) * (yn - e.ys y1)) /
      ((e.xs x2 - e.xs x1) * (e.ys y2 - e.ys y1))

/-- The attributes of a `UniversalKriging` object that later calls read; uk.py:246-510. -/
structure UK (n : ℕ) where
  variogramModel : ModelArg
  model : Option GsModel
  exactValues : Bool
  pseudoInv : Bool
  pseudoInvType : String
  variogramFunction : VFun
  functionName : String
  X_ORIG : Fin n → ℝ
  Y_ORIG : Fin n → ℝ
  Z : Fin n → ℝ
  XCENTER : ℝ
  YCENTER : ℝ
  anisotropyScaling : ℝ
  anisotropyAngle : ℝ
  X_ADJUSTED : Fin n → ℝ
  Y_ADJUSTED : Fin n → ℝ
  lags : List (ℝ × ℝ)
  params : List ℝ
  stats : Option Stats
  regionalLinear : Bool
  /-- `point_log_array` rows (adjusted x, adjusted y, strength); `none` = no point-log drift -/
  pointLog : Option (List (ℝ × ℝ × ℝ))
  /-- external drift grid with the values `z_scalars` at the data points -/
  externalZ : Option (ExtDrift × (Fin n → ℝ))
  /-- `specified_drift_data_arrays`; `none` = no specified drift -/
  specified : Option (List (Fin n → ℝ))
  /-- `functional_drift_terms`, assumed to act elementwise; `none` = no functional drift -/
  functional : Option (List (ℝ → ℝ → ℝ))

/-- The argument `external_drift` (with its axes) as passed: a `rows × cols` array. -/
structure ExtArg where
  rows : ℕ
  cols : ℕ
  get : ℕ → ℕ → ℝ

/-- A Python argument that should be a list. -/
inductive ListArg (α : Type)
  | notList
  | list (l : List α)

/-- Arguments of the constructor apart from the data; uk.py:220-246. -/
structure UKArgs where
  variogramModel : ModelArg := .name "linear"
  params : ParamArg := .none
  variogramFunction : FunArg := .none
  nlags : ℕ := 6
  weight : Bool := false
  anisotropyScaling : ℝ := 1
  anisotropyAngle : ℝ := 0
  driftTerms : List String := []
  pointDrift : Option (List (ℝ × ℝ × ℝ)) := none
  /-- `np.array(point_drift)` has an integer dtype (all its entries are Python ints) -/
  pointDriftInt : Bool := false
  externalDrift : Option ExtArg := none
  externalDriftX : Option (List ℝ) := none
  externalDriftY : Option (List ℝ) := none
  specifiedDrift : ListArg (List ℝ) := .list []
  functionalDrift : ListArg (ℝ → ℝ → ℝ) := .list []
  exactValues : BoolArg := .bool true
  pseudoInv : Bool := false
  pseudoInvType : String := "pinv"

/-- GSTools part of constructor and update; uk.py:263-282, 677-695 -/
def UK.resolveModel (env : Env) (vm : ModelArg) (f : FunArg) (p : ParamArg) (scaling angle : ℝ) :
    Py (String × Option GsModel × FunArg × ParamArg × ℝ × ℝ) :=
  match vm with
  | .name s => .ok (s, none, f, p, scaling, angle)
  | .gstools m => do
    validateGstools env.gstoolsVersion m
    if m.fieldDim = 3 then throw .valueError
    if m.latlon then throw .valueError
    return ("custom", some m, .callable (fun _ => .ok m.vario) "pykrige_vario", .list [],
      m.anis, m.angle)

def UK.pts {n : ℕ} (s : UK n) (i : Fin n) : Fin 2 → ℝ := ![s.X_ADJUSTED i, s.Y_ADJUSTED i]

/-- Shape check and transposition of the external drift; uk.py:411-438 -/
def setupExternal (args : UKArgs) : Py ExtDrift :=
  match args.externalDrift with
  | none => .error .valueError
  | some e =>
    match args.externalDriftX, args.externalDriftY with
    | some xs, some ys =>
      if e.rows ≠ ys.length ∨ e.cols ≠ xs.length then
        if e.rows = xs.length ∧ e.cols = ys.length then
          .ok { nx := xs.length, ny := ys.length, xs := xs.get, ys := ys.get
                z := fun r c => e.get c.val r.val }
        else .error .valueError
      else
        .ok { nx := xs.length, ny := ys.length, xs := xs.get, ys := ys.get
              z := fun r c => e.get r.val c.val }
    | _, _ => .error .valueError

/-- `z_scalars` at the data points; uk.py:439-441 (1-D array branch of
`_calculate_data_point_zscalars`, one point after the other) -/
def ExtDrift.atData {n : ℕ} (e : ExtDrift) (X Y : Fin n → ℝ) : Py (Fin n → ℝ) := do
  let l ← (List.finRange n).mapM fun i => e.zScalar (X i) (Y i)
  return fun i => l.getD i.val 0

/-- Checks on `specified_drift`; uk.py:469-492, uk3d.py:409-432 -/
def setupSpecified (n : ℕ) (arg : ListArg (List ℝ)) : Py (List (Fin n → ℝ)) :=
  match arg with
  | .notList => .error .typeError
  | .list [] => .error .valueError
  | .list (t :: ts) => (t :: ts).mapM fun term =>
      if h : term.length = n then .ok fun i => term.get (i.cast h.symm)
      else .error .valueError

/-- Checks on `functional_drift`; uk.py:496-510, uk3d.py:436-450 -/
def setupFunctional {α : Type} (arg : ListArg α) : Py (List α) :=
  match arg with
  | .notList => .error .typeError
  | .list [] => .error .valueError
  | .list (t :: ts) => .ok (t :: ts)

/-- The `external_Z` part of the constructor; uk.py:410-443 -/
def setupExternalZ {n : ℕ} (x y : Fin n → ℝ) (args : UKArgs) :
    Py (Option (ExtDrift × (Fin n → ℝ))) :=
  if "external_Z" ∈ args.driftTerms then do
    let e ← setupExternal args
    let zs ← e.atData x y
    return some (e, zs)
  else .ok none

/-- The `point_log` part of the constructor: wells adjusted with the constructor's anisotropy;
uk.py:445-466.  `X -= center` in `_adjust_for_anisotropy` (core.py:144) cannot be done in an integer array. -/
def setupPointLog (xc yc scaling angle : ℝ) (args : UKArgs) : Py (Option (List (ℝ × ℝ × ℝ))) :=
  if "point_log" ∈ args.driftTerms then
    match args.pointDrift with
    | none => .error .valueError
    | some wells =>
      if args.pointDriftInt = true then .error .castingError
      else .ok (some (wells.map fun w =>
        let p := adjust2 ![xc, yc] scaling angle ![w.1, w.2.1]
        (p 0, p 1, w.2.2)))
  else .ok none

/-- The `specified` part of the constructor; uk.py:468-493, uk3d.py:408-433 -/
def setupSpecifiedTerm (n : ℕ) (driftTerms : List String) (arg : ListArg (List ℝ)) :
    Py (Option (List (Fin n → ℝ))) :=
  if "specified" ∈ driftTerms then some <$> setupSpecified n arg else .ok none

/-- The `functional` part of the constructor; uk.py:495-510, uk3d.py:435-450 -/
def setupFunctionalTerm {α : Type} (driftTerms : List String) (arg : ListArg α) :
    Py (Option (List α)) :=
  if "functional" ∈ driftTerms then some <$> setupFunctional arg else .ok none

/-- `UniversalKriging.__init__`; uk.py:220-510 -/
def UK.create {n : ℕ} (env : Env) (x y z : Fin n → ℝ) (args : UKArgs) : Py (UK n) := do
  if args.pseudoInvType ∉ ["pinv", "pinvh"] then throw .valueError
  let exact ← match args.exactValues with
    | .bool b => pure b
    | .notBool => throw .valueError
  let (name, model, fArg, pArg, scaling, angle) ← UK.resolveModel env
    args.variogramModel args.variogramFunction args.params args.anisotropyScaling
    args.anisotropyAngle
  let (f, fname) ← chooseFunction name fArg
  let xc ← midrange x
  let yc ← midrange y
  let adj := adjustData2 x y xc yc scaling angle
  let vp ← makeVariogramParameterList name pArg
  let (lags, ps) ← initializeVariogramModel env adj z name vp f args.nlags args.weight "euclidean"
  let stats ← findStatistics adj z f ps "euclidean" args.pseudoInv
  let ext ← setupExternalZ x y args
  let plog ← setupPointLog xc yc scaling angle args
  let spec ← setupSpecifiedTerm n args.driftTerms args.specifiedDrift
  let func ← setupFunctionalTerm args.driftTerms args.functionalDrift
  return { variogramModel := .name name
           model := model
           exactValues := exact
           pseudoInv := args.pseudoInv
           pseudoInvType := args.pseudoInvType
           variogramFunction := f
           functionName := fname
           X_ORIG := x
           Y_ORIG := y
           Z := z
           XCENTER := xc
           YCENTER := yc
           anisotropyScaling := scaling
           anisotropyAngle := angle
           X_ADJUSTED := fun i => adj i 0
           Y_ADJUSTED := fun i => adj i 1
           lags := lags
           params := ps
           stats := some stats
           regionalLinear := decide ("regional_linear" ∈ args.driftTerms)
           pointLog := plog
           externalZ := ext
           specified := spec
           functional := func }

open Classical in
/-- The part of `update_variogram_model` that re-adjusts the data when the anisotropy changes; uk.py:710-723.  The wells are not touched. -/
def UK.reAniso {n : ℕ} (s : UK n) (scaling angle : ℝ) : UK n :=
  if scaling ≠ s.anisotropyScaling ∨ angle ≠ s.anisotropyAngle then
    let adj := adjustData2 s.X_ORIG s.Y_ORIG s.XCENTER s.YCENTER scaling angle
    { s with anisotropyScaling := scaling, anisotropyAngle := angle
             X_ADJUSTED := fun i => adj i 0, Y_ADJUSTED := fun i => adj i 1 }
  else s

open Classical in
/-- `update_variogram_model`; uk.py:630-788.  The point-log wells are *not* re-adjusted. -/
def UK.update {n : ℕ} (env : Env) (s : UK n) (u : OKUpdate) : Py Unit × UK n :=
  let s := { s with variogramModel := u.variogramModel, model := none }
  match UK.resolveModel env u.variogramModel u.variogramFunction u.params
      u.anisotropyScaling u.anisotropyAngle with
  | .error e =>
    (.error e, match u.variogramModel with
      | .gstools m => { s with model := some m }
      | .name _ => s)
  | .ok (name, model, fArg, pArg, scaling, angle) =>
  let s := { s with variogramModel := .name name, model := model }
  match chooseFunction name fArg with
  | .error e => (.error e, s)
  | .ok (f, fname) =>
  let s := { s with variogramFunction := f, functionName := fname }
  let s := s.reAniso scaling angle
  match makeVariogramParameterList name pArg with
  | .error e => (.error e, s)
  | .ok vp =>
  match initializeVariogramModel env s.pts s.Z name vp f u.nlags u.weight "euclidean" with
  | .error e => (.error e, s)
  | .ok (lags, ps) =>
  let s := { s with lags := lags, params := ps }
  match findStatistics s.pts s.Z f ps "euclidean" s.pseudoInv with
  | .error e => (.error e, s)
  | .ok st => (.ok (), { s with stats := some st })

/-- `n_withdrifts`; uk.py:1165-1181 -/
def UK.nWithDrifts {n : ℕ} (s : UK n) : ℕ :=
  let m := n
  let m := if s.regionalLinear then m + 2 else m
  let m := match s.pointLog with | some w => m + w.length | none => m
  let m := match s.externalZ with | some _ => m + 1 | none => m
  let m := match s.specified with | some l => m + l.length | none => m
  let m := match s.functional with | some l => m + l.length | none => m
  m

/-- `a[:n, i] = f; a[i, :n] = f; i += 1` -/
def pushDrift {n N : ℕ} (st : Matrix (Fin N) (Fin N) ℝ × ℕ) (f : Fin n → ℝ) :
    Matrix (Fin N) (Fin N) ℝ × ℕ :=
  let a := st.1
  let i := st.2
  let a : Matrix (Fin N) (Fin N) ℝ :=
    fun r c => if h : r.val < n ∧ c.val = i then f ⟨r.val, h.1⟩ else a r c
  let a : Matrix (Fin N) (Fin N) ℝ :=
    fun r c => if h : r.val = i ∧ c.val < n then f ⟨c.val, h.2⟩ else a r c
  (a, i + 1)

/-- `a[nw, :n] = 1; a[:n, nw] = 1; a[n:nw+1, n:nw+1] = 0`; uk.py:914-918 -/
def setUnbias {N : ℕ} (n nw : ℕ) (a : Matrix (Fin N) (Fin N) ℝ) : Matrix (Fin N) (Fin N) ℝ :=
  let a : Matrix (Fin N) (Fin N) ℝ := fun r c => if r.val = nw ∧ c.val < n then 1 else a r c
  let a : Matrix (Fin N) (Fin N) ℝ := fun r c => if r.val < n ∧ c.val = nw then 1 else a r c
  fun r c => if n ≤ r.val ∧ r.val < nw + 1 ∧ n ≤ c.val ∧ c.val < nw + 1 then 0 else a r c

/-- `np.log(np.sqrt((x - wx)**2 + (y - wy)**2))` with infinities replaced by -100; uk.py:884-893 -/
def logDist (x y wx wy : ℝ) : ℝ :=
  let r := Real.sqrt ((x - wx) ^ 2 + (y - wy) ^ 2)
  open Classical in if r = 0 then -100 else Real.log r

/-- The drift rows/columns, one term after the other; uk.py:876-912 -/
def UK.pushDrifts {n N : ℕ} (s : UK n) (st : Matrix (Fin N) (Fin N) ℝ × ℕ) :
    Matrix (Fin N) (Fin N) ℝ × ℕ :=
  let st := if s.regionalLinear then pushDrift (pushDrift st s.X_ADJUSTED) s.Y_ADJUSTED else st
  let st := match s.pointLog with
    | some wells => wells.foldl (fun st w => pushDrift st fun k : Fin n =>
        -w.2.2 * logDist (s.X_ADJUSTED k) (s.Y_ADJUSTED k) w.1 w.2.1) st
    | none => st
  let st := match s.externalZ with
    | some e => pushDrift st e.2
    | none => st
  let st := match s.specified with
    | some l => l.foldl (fun st arr => pushDrift st arr) st
    | none => st
  let st := match s.functional with
    | some l => l.foldl (fun st (g : ℝ → ℝ → ℝ) => pushDrift st fun k : Fin n =>
        g (s.X_ADJUSTED k) (s.Y_ADJUSTED k)) st
    | none => st
  st

/-- `_get_kriging_matrix(n, n_withdrifts)`; uk.py:861-920.  The second component tells whether the
"Kriging may fail" warning is issued. -/
def UK.getKrigingMatrix {n : ℕ} (s : UK n) :
    Py (Matrix (Fin (s.nWithDrifts + 1)) (Fin (s.nWithDrifts + 1)) ℝ × Bool) := do
  let γ ← s.variogramFunction s.params
  let a := npZeros (s.nWithDrifts + 1)
  let a := setBlock a n fun i j => -γ (euclid (s.pts i) (s.pts j))
  let a := fillDiagonal a 0
  let st := s.pushDrifts (a, n)
  return (setUnbias n s.nWithDrifts st.1, decide (st.2 ≠ s.nWithDrifts))

/-- `b[i, 0] = v; i += 1` -/
def pushRhs {N : ℕ} (st : (Fin N → ℝ) × ℕ) (v : ℝ) : (Fin N → ℝ) × ℕ :=
  (setAt st.1 st.2 v, st.2 + 1)

theorem UK.le_nWithDrifts {n : ℕ} (s : UK n) : n ≤ s.nWithDrifts + 1 := by
  unfold UK.nWithDrifts; grind

/-- One query point: index, coordinates as given, adjusted coordinates, distances to the data. -/
structure UKQuery (n : ℕ) where
  j : ℕ
  xo : ℝ
  yo : ℝ
  adj : Fin 2 → ℝ
  bd : Fin n → ℝ

/-- The drift entries of a row of the right-hand side in `_exec_vector`; uk.py:950-983 -/
def UK.pushRhsVector {n N : ℕ} (s : UK n) (spec : List (List ℝ)) (zext : ℝ) (q : UKQuery n)
    (st : (Fin N → ℝ) × ℕ) : (Fin N → ℝ) × ℕ :=
  let st := if s.regionalLinear then pushRhs (pushRhs st (q.adj 0)) (q.adj 1) else st
  let st := match s.pointLog with
    | some wells => wells.foldl (fun st w =>
        pushRhs st (-w.2.2 * logDist (q.adj 0) (q.adj 1) w.1 w.2.1)) st
    | none => st
  let st := match s.externalZ with
    | some _ => pushRhs st zext
    | none => st
  let st := match s.specified with
    | some _ => spec.foldl (fun st (vals : List ℝ) => pushRhs st (vals.getD q.j 0)) st
    | none => st
  let st := match s.functional with
    | some l => l.foldl (fun st (g : ℝ → ℝ → ℝ) => pushRhs st (g (q.adj 0) (q.adj 1))) st
    | none => st
  st

open Classical in
/-- Row `j` of the right-hand side in `_exec_vector`; uk.py:941-985.  `zext` is the external drift
value computed for this point; `spec` are the flattened specified drift arrays (they have one entry
per point, checked in `execute`).  The second component: is the warning issued? -/
def UK.vectorRow {n : ℕ} (s : UK n) (γ : ℝ → ℝ) (zeroValue : Prop) (spec : List (List ℝ))
    (zext : ℝ) (q : UKQuery n) : (Fin (s.nWithDrifts + 1) → ℝ) × Bool :=
  let b : Fin (s.nWithDrifts + 1) → ℝ := fun _ => 0
  let b := setHead b n fun k => -γ (q.bd k)
  let b := if zeroValue ∧ s.exactValues = true then setWhere b n (fun k => |q.bd k| ≤ eps) 0 else b
  let st := s.pushRhsVector spec zext q (b, n)
  (setAt st.1 s.nWithDrifts 1, decide (st.2 ≠ s.nWithDrifts))

/-- External drift value at a query point (0 if there is no external drift: unused). -/
def UK.extAt {n : ℕ} (s : UK n) (q : UKQuery n) : Py ℝ :=
  match s.externalZ with
  | some e => e.1.zScalar q.xo q.yo
  | none => .ok 0

/-- `_exec_vector(...)`; uk.py:922-1009.  The external drift is evaluated at *all* points, masked or
not. -/
def UK.execVector {n : ℕ} (s : UK n)
    (a : Matrix (Fin (s.nWithDrifts + 1)) (Fin (s.nWithDrifts + 1)) ℝ)
    (qs : List (UKQuery n)) (spec : List (List ℝ)) : Py (List (ℝ × ℝ) × Bool) := do
  let a_inv ← invertPython s.pseudoInv s.pseudoInvType a
  let zeroValue : Prop := ∃ q ∈ qs, ∃ k, |q.bd k| ≤ eps
  let γ ← s.variogramFunction s.params
  let exts ← qs.mapM s.extAt
  let b := List.zipWith (fun q zext => s.vectorRow γ zeroValue spec zext q) qs exts
  return (b.map fun b =>
    let x := a_inv *ᵥ b.1
    (∑ k : Fin n, x (k.castLE s.le_nWithDrifts) * s.Z k, ∑ k, x k * -b.1 k),
    b.any Prod.snd)

open Classical in
/-- Point-log contributions in `_exec_loop`; uk.py:1049-1062.  Exactly at a well `log_dist` is the
numpy scalar `-inf`, and the item assignment `log_dist[np.isinf(log_dist)] = -100.0` raises
`TypeError`. -/
def loopLogDist (x y wx wy : ℝ) : Py ℝ :=
  let r := Real.sqrt ((x - wx) ^ 2 + (y - wy) ^ 2)
  if r = 0 then .error .typeError else .ok (Real.log r)

/-- The drift entries of the right-hand side in `_exec_loop`; uk.py:1042-1083.  Note
`spec_vals.flatten()[i]` with the *row* index `i` (uk.py:1070). -/
def UK.pushRhsLoop {n N : ℕ} (s : UK n) (spec : List (List ℝ)) (q : UKQuery n)
    (st : (Fin N → ℝ) × ℕ) : Py ((Fin N → ℝ) × ℕ) := do
  let st := if s.regionalLinear then pushRhs (pushRhs st (q.adj 0)) (q.adj 1) else st
  let st ← match s.pointLog with
    | some wells => wells.foldlM (fun st w => do
        let ld ← loopLogDist (q.adj 0) (q.adj 1) w.1 w.2.1
        return pushRhs st (-w.2.2 * ld)) st
    | none => pure st
  let st ← match s.externalZ with
    | some e => do
        let z ← e.1.zScalar q.xo q.yo
        pure (pushRhs st z)
    | none => pure st
  let st ← match s.specified with
    | some _ => spec.foldlM (fun st (vals : List ℝ) => do
        let v ← pyGet vals st.2
        return pushRhs st v) st
    | none => pure st
  let st := match s.functional with
    | some l => l.foldl (fun st (g : ℝ → ℝ → ℝ) => pushRhs st (g (q.adj 0) (q.adj 1))) st
    | none => st
  return st

open Classical in
/-- Body of the loop of `_exec_loop` at an unmasked point; uk.py:1029-1086.  Note
`spec_vals.flatten()[i]` with the *row* index `i` (uk.py:1070). -/
def UK.loopBody {n : ℕ} (s : UK n)
    (a_inv : Matrix (Fin (s.nWithDrifts + 1)) (Fin (s.nWithDrifts + 1)) ℝ)
    (spec : List (List ℝ)) (q : UKQuery n) : Py ((ℝ × ℝ) × Bool) := do
  let zeroValue : Prop := ∃ k, |q.bd k| ≤ eps
  let γ ← s.variogramFunction s.params
  let b : Fin (s.nWithDrifts + 1) → ℝ := fun _ => 0
  let b := setHead b n fun k => -γ (q.bd k)
  let b := if zeroValue ∧ s.exactValues = true then setWhere b n (fun k => |q.bd k| ≤ eps) 0 else b
  let st ← s.pushRhsLoop spec q (b, n)
  let b := setAt st.1 s.nWithDrifts 1
  let x := a_inv *ᵥ b
  return ((∑ k : Fin n, x (k.castLE s.le_nWithDrifts) * s.Z k, ∑ k, x k * -b k),
    decide (st.2 ≠ s.nWithDrifts))

/-- `_exec_loop(...)`; uk.py:1011-1088 -/
def UK.execLoop {n : ℕ} (s : UK n)
    (a : Matrix (Fin (s.nWithDrifts + 1)) (Fin (s.nWithDrifts + 1)) ℝ)
    (qs : List (UKQuery n)) (mask : List Bool) (spec : List (List ℝ)) :
    Py (List (ℝ × ℝ) × Bool) := do
  let a_inv ← invertPython s.pseudoInv s.pseudoInvType a
  let l ← (qs.zip mask).mapM fun p =>
    if p.2 then pure ((0, 0), false) else s.loopBody a_inv spec p.1
  return (l.map Prod.fst, l.any Prod.snd)

/-- An array of specified drift values at the query points: one- or two-dimensional. -/
inductive SpecArray
  | d1 (l : List ℝ)
  | d2 (rows cols : ℕ) (get : ℕ → ℕ → ℝ)

/-- The argument `specified_drift_arrays`: `None`, a list, or a non-list (assumed non-empty). -/
inductive SpecArg
  | none
  | notList
  | list (l : List SpecArray)

/-- Arguments of `execute`; uk.py:1090-1098 -/
structure UKExecArgs where
  toExec : ExecArgs
  spec : SpecArg := .none

/-- One array of specified drift values, checked, transposed if necessary, flattened;
uk.py:1230-1266 -/
def checkSpec (style : String) (nx ny : ℕ) : SpecArray → Py (List ℝ)
  | .d1 l =>
    if style ∈ ["grid", "masked"] then .error .valueError
    else if l.length ≠ nx then .error .valueError
    else .ok l
  | .d2 r c get =>
    if style ∈ ["grid", "masked"] then
      if r ≠ ny ∨ c ≠ nx then
        if r = nx ∧ c = ny then
          .ok ((List.range ny).flatMap fun i => (List.range nx).map fun j => get j i)
        else .error .valueError
      else .ok ((List.range ny).flatMap fun i => (List.range nx).map fun j => get i j)
    else .error .valueError

/-- `spec_drift_grids`; uk.py:1215-1280 -/
def UK.specGrids {n : ℕ} (s : UK n) (args : UKExecArgs) : Py (List (List ℝ)) :=
  match s.specified with
  | none => .ok []
  | some arrs =>
    match args.spec with
    | .none => .error .valueError
    | .list [] => .error .valueError
    | .notList => .error .typeError
    | .list (l :: ls) => do
      let g ← (l :: ls).mapM (checkSpec args.toExec.style args.toExec.xpoints.vals.length
        args.toExec.ypoints.vals.length)
      if g.length ≠ arrs.length then throw .valueError
      return g

/-- Adjusted coordinates of a query point; uk.py:1285-1290 -/
def UK.adjustPoint {n : ℕ} (s : UK n) (p : ℝ × ℝ) : Fin 2 → ℝ :=
  adjust2 ![s.XCENTER, s.YCENTER] s.anisotropyScaling s.anisotropyAngle ![p.1, p.2]

/-- The query points with their index, both sets of coordinates and distances; uk.py:1282-1299 -/
def UK.queries {n : ℕ} (s : UK n) (pts : List (ℝ × ℝ)) : List (UKQuery n) :=
  pts.zipIdx.map fun p =>
    { j := p.2, xo := p.1.1, yo := p.1.2, adj := s.adjustPoint p.1
      bd := fun i => euclid (s.adjustPoint p.1) (s.pts i) }

/-- `execute(...)` together with "was one of the 'Kriging may fail' warnings issued?";
uk.py:1090-1328 -/
def UK.executeW {n : ℕ} (s : UK n) (args : UKExecArgs) : Py (ExecResult × Bool) := do
  if args.toExec.style ∉ ["grid", "masked", "points"] then throw .valueError
  let (a, wa) ← s.getKrigingMatrix
  let (pts, mask) ← queryPoints args.toExec
  let spec ← s.specGrids args
  if args.toExec.xpoints.isInt && args.toExec.ypoints.isInt then throw .castingError
  let qs := s.queries pts
  let (res, wb) ←
    if args.toExec.backend = "vectorized" then s.execVector a qs spec
    else if args.toExec.backend = "loop" then s.execLoop a qs mask spec
    else throw .valueError
  return ({ shape := resultShape args.toExec
            z := applyMask args.toExec.style mask (res.map Prod.fst)
            ss := applyMask args.toExec.style mask (res.map Prod.snd) }, wa || wb)

/-- `execute(...)`; uk.py:1090-1328 -/
def UK.execute {n : ℕ} (s : UK n) (args : UKExecArgs) : Py ExecResult := Prod.fst <$> s.executeW args

end
end PyKrige
