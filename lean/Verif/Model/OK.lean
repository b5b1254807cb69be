import Verif.Model.Frontend

/-!
Model of `src/pykrige/ok.py` (class `OrdinaryKriging`, 2D) and of the compiled loops in
`src/pykrige/lib/cok.pyx`.

Data arrays of length `n` are `Fin n → ℝ` (the constructor is modelled for `x`, `y`, `z` of equal
length).  `verbose` is in
`Model/Verbose.lean`; plotting is left out.
-/

namespace PyKrige
noncomputable section
open Matrix

/-- The attributes of an `OrdinaryKriging` object that later calls read; ok.py:206-377. -/
structure OK (n : ℕ) where
  variogramModel : ModelArg
  model : Option GsModel
  exactValues : Bool
  coordinatesType : String
  pseudoInv : Bool
  pseudoInvType : String
  variogramFunction : VFun
  /-- `self.variogram_function.__name__` -/
  functionName : String
  X_ORIG : Fin n → ℝ
  Y_ORIG : Fin n → ℝ
  Z : Fin n → ℝ
  XCENTER : ℝ
  YCENTER : ℝ
  anisotropyScaling : ℝ
  anisotropyAngle : ℝ
  X_ADJUSTED : Fin n → ℝ
  Y_ADJUSTED : Fin n → ℝ
  /-- `self.lags` and `self.semivariance`, pairwise -/
  lags : List (ℝ × ℝ)
  params : List ℝ
  /-- the parameter list consists of Python ints only (so that `np.asarray` yields an integer array) -/
  paramsInt : Bool
  stats : Option Stats

/-- Arguments of the constructor apart from the data; ok.py:187-206. -/
structure OKArgs where
  variogramModel : ModelArg := .name "linear"
  params : ParamArg := .none
  paramsAllInt : Bool := false
  variogramFunction : FunArg := .none
  nlags : ℕ := 6
  weight : Bool := false
  anisotropyScaling : ℝ := 1
  anisotropyAngle : ℝ := 0
  enableStatistics : Bool := false
  coordinatesType : String := "euclidean"
  exactValues : BoolArg := .bool true
  pseudoInv : Bool := false
  pseudoInvType : String := "pinv"

/-- GSTools part of the constructor and of `update_variogram_model`; ok.py:223-242, 429-447.
Returns model name, stored model, variogram function argument, parameters, scaling, angle. -/
def OK.resolveModel (env : Env) (coordinatesType : String) (vm : ModelArg) (f : FunArg)
    (p : ParamArg) (scaling angle : ℝ) :
    Py (String × Option GsModel × FunArg × ParamArg × ℝ × ℝ) :=
  match vm with
  | .name s => .ok (s, none, f, p, scaling, angle)
  | .gstools m => do
    validateGstools env.gstoolsVersion m
    if m.fieldDim = 3 then throw .valueError
    if m.latlon = true ∧ coordinatesType = "euclidean" then throw .valueError
    return ("custom", some m, .callable (fun _ => .ok m.vario) "pykrige_vario", .list [],
      m.anis, m.angle)

/-- All points of the data set, adjusted: rows of `np.vstack((X_ADJUSTED, Y_ADJUSTED)).T`. -/
def OK.pts {n : ℕ} (s : OK n) (i : Fin n) : Fin 2 → ℝ := ![s.X_ADJUSTED i, s.Y_ADJUSTED i]

/-- `_adjust_for_anisotropy` applied to the original data; ok.py:287-292, 466-471. -/
def adjustData2 {n : ℕ} (X Y : Fin n → ℝ) (xc yc scaling angle : ℝ) : Fin n → Fin 2 → ℝ :=
  fun i => adjust2 ![xc, yc] scaling angle ![X i, Y i]

/-- Midrange `(np.amax(v) + np.amin(v)) / 2.0`; ok.py:281-282 -/
def midrange {n : ℕ} (v : Fin n → ℝ) : Py ℝ := do
  let mx ← amax (List.ofFn v)
  let mn ← amin (List.ofFn v)
  return (mx + mn) / 2

/-- Coordinate adjustment in the constructor; ok.py:280-315.  Returns centre, scaling, angle and the
adjusted points. -/
def OK.setupCoordinates {n : ℕ} (X Y : Fin n → ℝ) (coordinatesType : String) (scaling angle : ℝ) :
    Py (ℝ × ℝ × ℝ × ℝ × (Fin n → Fin 2 → ℝ)) :=
  if coordinatesType = "euclidean" then do
    let xc ← midrange X
    let yc ← midrange Y
    return (xc, yc, scaling, angle, adjustData2 X Y xc yc scaling angle)
  else if coordinatesType = "geographic" then
    .ok (0, 0, 1, 0, fun i => ![X i, Y i])
  else .error .valueError

/-- `np.asarray(variogram_model_parameters)` has an integer dtype. -/
def intParams (p : ParamArg) (ps : List ℝ) (allInt : Bool) : Bool :=
  match p with
  | .none => false
  | _ => allInt && !ps.isEmpty

/-- `OrdinaryKriging.__init__`; ok.py:187-377 -/
def OK.create {n : ℕ} (env : Env) (x y z : Fin n → ℝ) (args : OKArgs) : Py (OK n) := do
  if args.pseudoInvType ∉ ["pinv", "pinvh"] then throw .valueError
  let exact ← match args.exactValues with
    | .bool b => pure b
    | .notBool => throw .valueError
  let (name, model, fArg, pArg, scaling, angle) ← OK.resolveModel env args.coordinatesType
    args.variogramModel args.variogramFunction args.params args.anisotropyScaling
    args.anisotropyAngle
  let (f, fname) ← chooseFunction name fArg
  let (xc, yc, scaling, angle, adj) ← OK.setupCoordinates x y args.coordinatesType scaling angle
  let vp ← makeVariogramParameterList name pArg
  let (lags, ps) ← initializeVariogramModel env adj z name vp f args.nlags args.weight
    args.coordinatesType
  let stats ← if args.enableStatistics then
      some <$> findStatistics adj z f ps args.coordinatesType args.pseudoInv
    else pure none
  return { variogramModel := .name name
           model := model
           exactValues := exact
           coordinatesType := args.coordinatesType
           pseudoInv := args.pseudoInv
           pseudoInvType := args.pseudoInvType
           variogramFunction := f
           functionName := fname
           X_ORIG := x
           Y_ORIG := y
           Z := z
           XCENTER := xc
           YCENTER := yc
           anisotropyScaling := scaling
           anisotropyAngle := angle
           X_ADJUSTED := fun i => adj i 0
           Y_ADJUSTED := fun i => adj i 1
           lags := lags
           params := ps
           paramsInt := intParams pArg ps args.paramsAllInt
           stats := stats }

/-- Arguments of `update_variogram_model`; ok.py:379-388. -/
structure OKUpdate where
  variogramModel : ModelArg
  params : ParamArg := .none
  paramsAllInt : Bool := false
  variogramFunction : FunArg := .none
  nlags : ℕ := 6
  weight : Bool := false
  anisotropyScaling : ℝ := 1
  anisotropyAngle : ℝ := 0

open Classical in
/-- The part of `update_variogram_model` that re-adjusts the data when the anisotropy changes; ok.py:463-488. -/
def OK.reAniso {n : ℕ} (s : OK n) (scaling angle : ℝ) : OK n :=
  if scaling ≠ s.anisotropyScaling ∨ angle ≠ s.anisotropyAngle then
    if s.coordinatesType = "euclidean" then
      let adj := adjustData2 s.X_ORIG s.Y_ORIG s.XCENTER s.YCENTER scaling angle
      { s with anisotropyScaling := scaling, anisotropyAngle := angle
               X_ADJUSTED := fun i => adj i 0, Y_ADJUSTED := fun i => adj i 1 }
    else if s.coordinatesType = "geographic" then
      { s with anisotropyScaling := 1, anisotropyAngle := 0
               X_ADJUSTED := s.X_ORIG, Y_ADJUSTED := s.Y_ORIG }
    else s
  else s

open Classical in
/-- `update_variogram_model`; ok.py:379-553.  Returns what it raises (if anything) together with the
state of the object afterwards: attributes assigned before an exception stay assigned. -/
def OK.update {n : ℕ} (env : Env) (s : OK n) (u : OKUpdate) : Py Unit × OK n :=
  -- ok.py:427-428
  let s := { s with variogramModel := u.variogramModel, model := none }
  match OK.resolveModel env s.coordinatesType u.variogramModel u.variogramFunction u.params
      u.anisotropyScaling u.anisotropyAngle with
  | .error e =>
    -- `self.model` was assigned just before the check that raised (ok.py:432)
    (.error e, match u.variogramModel with
      | .gstools m => { s with model := some m }
      | .name _ => s)
  | .ok (name, model, fArg, pArg, scaling, angle) =>
  let s := { s with variogramModel := .name name, model := model }
  -- ok.py:448-464
  match chooseFunction name fArg with
  | .error e => (.error e, s)
  | .ok (f, fname) =>
  let s := { s with variogramFunction := f, functionName := fname }
  -- ok.py:463-488
  let s := s.reAniso scaling angle
  -- ok.py:497-512
  match makeVariogramParameterList name pArg with
  | .error e => (.error e, s)
  | .ok vp =>
  match initializeVariogramModel env s.pts s.Z name vp f u.nlags u.weight s.coordinatesType with
  | .error e => (.error e, s)
  | .ok (lags, ps) =>
  let s := { s with lags := lags, params := ps, paramsInt := intParams pArg ps u.paramsAllInt }
  -- ok.py:537-548
  match findStatistics s.pts s.Z f ps s.coordinatesType s.pseudoInv with
  | .error e => (.error e, s)
  | .ok st => (.ok (), { s with stats := some st })

/-- `get_variogram_points()`; ok.py:569-587 -/
def OK.getVariogramPoints {n : ℕ} (s : OK n) : Py (List ℝ × List ℝ) := do
  let γ ← s.variogramFunction s.params
  return (s.lags.map Prod.fst, s.lags.map fun l => γ l.1)

/-- Distances between data points in `_get_kriging_matrix`; ok.py:629-640 -/
def OK.dataDist {n : ℕ} (s : OK n) (i j : Fin n) : ℝ :=
  if s.coordinatesType = "euclidean" then euclid (s.pts i) (s.pts j)
  else greatCircleDistance (s.X_ADJUSTED i) (s.Y_ADJUSTED i) (s.X_ADJUSTED j) (s.Y_ADJUSTED j)

/-- `_get_kriging_matrix(n)`; ok.py:626-648 -/
def OK.getKrigingMatrix {n : ℕ} (s : OK n) : Py (Matrix (Fin (n + 1)) (Fin (n + 1)) ℝ) := do
  let γ ← s.variogramFunction s.params
  let a := npZeros (n + 1)
  let a := setBlock a n fun i j => -γ (s.dataDist i j)
  let a := fillDiagonal a 0
  let a := setRow a n 1
  let a := setCol a n 1
  let a := setEntry a n n 0
  return a

open Classical in
/-- `_exec_vector(a, bd, mask)`; ok.py:650-683.  `bd` is the list of rows of the array `bd`; the 3-D
array `b` is the list of its rows.  `b` becomes a masked array, which only hides results at masked
points (they are hidden again by `execute`), so the mask is not used here. -/
def OK.execVector {n : ℕ} (s : OK n) (a : Matrix (Fin (n + 1)) (Fin (n + 1)) ℝ)
    (bd : List (Fin n → ℝ)) : Py (List (ℝ × ℝ)) := do
  let a_inv ← invertPython s.pseudoInv s.pseudoInvType a
  let zeroValue : Prop := ∃ row ∈ bd, ∃ k, |row k| ≤ eps
  let γ ← s.variogramFunction s.params
  let b : List (Fin (n + 1) → ℝ) := bd.map fun row =>
    let b : Fin (n + 1) → ℝ := fun _ => 0
    let b := setHead b n fun k => -γ (row k)
    let b := if zeroValue ∧ s.exactValues = true then setWhere b n (fun k => |row k| ≤ eps) 0 else b
    setAt b n 1
  return b.map fun b =>
    let x := a_inv *ᵥ b
    (∑ k : Fin n, x k.castSucc * s.Z k, ∑ k, x k * -b k)

open Classical in
/-- Body of the loop of `_exec_loop` at an unmasked point; ok.py:698-718 -/
def OK.loopBody {n : ℕ} (s : OK n) (a_inv : Matrix (Fin (n + 1)) (Fin (n + 1)) ℝ)
    (bd : Fin n → ℝ) : Py (ℝ × ℝ) := do
  let zeroValue : Prop := ∃ k, |bd k| ≤ eps
  let γ ← s.variogramFunction s.params
  let b : Fin (n + 1) → ℝ := fun _ => 0
  let b := setHead b n fun k => -γ (bd k)
  let b := if zeroValue ∧ s.exactValues = true then setWhere b n (fun k => |bd k| ≤ eps) 0 else b
  let b := setAt b n 1
  let x := a_inv *ᵥ b
  return (∑ k : Fin n, x k.castSucc * s.Z k, ∑ k, x k * -b k)

/-- `_exec_loop(a, bd_all, mask)`; ok.py:685-720.  The result arrays start as zeros and iteration
`j` (over `np.nonzero(~mask)[0]`) writes index `j` only. -/
def OK.execLoop {n : ℕ} (s : OK n) (a : Matrix (Fin (n + 1)) (Fin (n + 1)) ℝ)
    (bdAll : List (Fin n → ℝ)) (mask : List Bool) : Py (List (ℝ × ℝ)) := do
  let a_inv ← invertPython s.pseudoInv s.pseudoInvType a
  (bdAll.zip mask).mapM fun p => if p.2 then pure (0, 0) else s.loopBody a_inv p.1

open Classical in
/-- Body of the loop of `_exec_loop_moving_window` at an unmasked point; ok.py:732-756 -/
def OK.windowBody {n : ℕ} (s : OK n) (aAll : Matrix (Fin (n + 1)) (Fin (n + 1)) ℝ)
    (w : Window n) : Py (ℝ × ℝ) := do
  let k := w.sel.length
  let a : Matrix (Fin (k + 1)) (Fin (k + 1)) ℝ := aAll.submatrix w.selector w.selector
  let zeroValue : Prop := ∃ i, |w.bd i| ≤ eps
  let γ ← s.variogramFunction s.params
  let b : Fin (k + 1) → ℝ := fun _ => 0
  let b := setHead b k fun i => -γ (w.bd i)
  let b := if zeroValue ∧ s.exactValues = true then setWhere b k (fun i => |w.bd i| ≤ eps) 0 else b
  let b := setAt b k 1
  let x ← scipySolve a b
  return (∑ i : Fin k, x i.castSucc * s.Z (w.sel.get i), -∑ i, x i * b i)

/-- `_exec_loop_moving_window(a_all, bd_all, mask, bd_idx)`; ok.py:722-758 -/
def OK.execLoopMovingWindow {n : ℕ} (s : OK n) (aAll : Matrix (Fin (n + 1)) (Fin (n + 1)) ℝ)
    (ws : List (Window n)) (mask : List Bool) : Py (List (ℝ × ℝ)) :=
  (ws.zip mask).mapM fun p => if p.2 then pure (0, 0) else s.windowBody aAll p.1

/-- `check_b_vect(n, bd, b, eps)`; lib/cok.pyx:196-203 (no absolute value) -/
def checkBVect {N : ℕ} (n : ℕ) (bd : Fin n → ℝ) (b : Fin N → ℝ) : Fin N → ℝ :=
  setWhere b n (fun k => bd k ≤ eps) 0

/-- What the C functions need from the object: `c_pars`; ok.py:909-920.  Looking up the compiled
variogram raises `NotImplementedError` for unknown names; `double[::1]` refuses an integer array of
parameters with `ValueError`; lib/cok.pyx:38-40. -/
def OK.cVariogram {n : ℕ} (s : OK n) : Py (ℝ → ℝ) := do
  let f ← cGetVariogramModel s.functionName
  if s.paramsInt then throw .valueError
  f s.params

/-- Body of the loop of `_c_exec_loop` at an unmasked point; lib/cok.pyx:60-94 -/
def OK.cLoopBody {n : ℕ} (s : OK n) (γ : ℝ → ℝ) (a_inv : Matrix (Fin (n + 1)) (Fin (n + 1)) ℝ)
    (bd : Fin n → ℝ) : ℝ × ℝ :=
  let b : Fin (n + 1) → ℝ := fun _ => 0
  let b := setHead b n fun k => γ (bd k) * -1
  let b := setAt b n 1
  let b := if s.exactValues then checkBVect n bd b else b
  let x := a_inv *ᵥ b
  (∑ k : Fin n, x k.castSucc * s.Z k, -∑ k, x k * b k)

/-- `_c_exec_loop(a_all, bd_all, mask, n, pars)`; lib/cok.pyx:14-96 -/
def OK.cExecLoop {n : ℕ} (s : OK n) (a : Matrix (Fin (n + 1)) (Fin (n + 1)) ℝ)
    (bdAll : List (Fin n → ℝ)) (mask : List Bool) : Py (List (ℝ × ℝ)) := do
  let γ ← s.cVariogram
  let a_inv ← invertC s.pseudoInv s.pseudoInvType a
  return (bdAll.zip mask).map fun p => if p.2 then (0, 0) else s.cLoopBody γ a_inv p.1

/-- `a_selection` as the column-major matrix handed to `dgesv`; lib/cok.pyx:132-143.  Linear index
`r + nb*c` is entry `(r, c)`: `a_selection[k + nb*j] = a_all[p_i, p_j]`, then row `n`, column `n` set
to 1 (`a_selection[k*nb + n]`, `a_selection[n*nb + k]`), then entry `(n, n)` set to 0. -/
def Window.aSelection {n : ℕ} (w : Window n) (aAll : Matrix (Fin (n + 1)) (Fin (n + 1)) ℝ) :
    Matrix (Fin (w.sel.length + 1)) (Fin (w.sel.length + 1)) ℝ :=
  let k := w.sel.length
  let a := npZeros (k + 1)
  let a := setBlock a k fun i j => aAll (w.sel.get i).castSucc (w.sel.get j).castSucc
  let a := setRow a k 1
  let a := setCol a k 1
  setEntry a k k 0

/-- Body of the loop of `_c_exec_loop_moving_window` at an unmasked point; lib/cok.pyx:125-191 -/
def OK.cWindowBody {n : ℕ} (s : OK n) (γ : ℝ → ℝ) (aAll : Matrix (Fin (n + 1)) (Fin (n + 1)) ℝ)
    (w : Window n) : Py (ℝ × ℝ) := do
  let k := w.sel.length
  let b : Fin (k + 1) → ℝ := fun _ => 0
  let b := setHead b k fun i => -γ (w.bd i)
  let b := setAt b k 1
  let b := if s.exactValues then checkBVect k w.bd b else b
  let x ← dgesv (w.aSelection aAll) b
  return (∑ i : Fin k, x i.castSucc * s.Z (w.sel.get i), -∑ i, x i * b i)

/-- `_c_exec_loop_moving_window(...)`; lib/cok.pyx:98-193 -/
def OK.cExecLoopMovingWindow {n : ℕ} (s : OK n) (aAll : Matrix (Fin (n + 1)) (Fin (n + 1)) ℝ)
    (ws : List (Window n)) (mask : List Bool) : Py (List (ℝ × ℝ)) := do
  let γ ← s.cVariogram
  (ws.zip mask).mapM fun p => if p.2 then pure (0, 0) else s.cWindowBody γ aAll p.1

/-- Arguments of `execute`; ok.py:760-768. -/
structure ExecArgs where
  style : String
  xpoints : QArray
  ypoints : QArray
  mask : Option Mask2 := none
  backend : String := "vectorized"
  nClosest : Option ℤ := none

/-- Query points, flattened mask and number of grid rows/columns; ok.py:843-876.  The mask of a
non-'masked' call is all `False` (ok.py:893-894). -/
def queryPoints (args : ExecArgs) : Py (List (ℝ × ℝ) × List Bool) :=
  let xs := args.xpoints.vals
  let ys := args.ypoints.vals
  if args.style ∈ ["grid", "masked"] then
    if args.style = "masked" then
      match args.mask with
      | none => .error .ioError
      | some m =>
        if m.rows ≠ ys.length ∨ m.cols ≠ xs.length then
          if m.rows = xs.length ∧ m.cols = ys.length then
            .ok (meshgridFlat xs ys, m.T.flatten)
          else .error .valueError
        else .ok (meshgridFlat xs ys, m.flatten)
    else .ok (meshgridFlat xs ys, List.replicate (ys.length * xs.length) false)
  else if args.style = "points" then
    if xs.length ≠ ys.length then .error .valueError
    else .ok (xs.zip ys, List.replicate xs.length false)
  else .error .valueError

/-- Unit vector of a point given by longitude and latitude in degrees; ok.py:929-950 -/
def unitVector (lon lat : ℝ) : Fin 3 → ℝ :=
  let lon := lon * Real.pi / 180
  let lat := lat * Real.pi / 180
  ![Real.cos lon * Real.cos lat, Real.sin lon * Real.cos lat, Real.sin lat]

/-- Query coordinates in the frame used for distances; ok.py:878-886: in the Euclidean case the
in-place `X -= center` of `_adjust_for_anisotropy` (core.py:143) refuses an integer array. -/
def OK.adjustQuery {n : ℕ} (s : OK n) (args : ExecArgs) (pts : List (ℝ × ℝ)) :
    Py (List (Fin 2 → ℝ)) :=
  if s.coordinatesType = "euclidean" then
    if args.xpoints.isInt && args.ypoints.isInt then .error .castingError
    else .ok (pts.map fun p =>
      adjust2 ![s.XCENTER, s.YCENTER] s.anisotropyScaling s.anisotropyAngle ![p.1, p.2])
  else .ok (pts.map fun p => ![p.1, p.2])

/-- Distance from a query point to datum `i`; ok.py:978-989 (global) and 957-964 (moving window). -/
def OK.queryDist {n : ℕ} (s : OK n) (q : Fin 2 → ℝ) (i : Fin n) : ℝ :=
  if s.coordinatesType = "euclidean" then euclid q (s.pts i)
  else greatCircleDistance (q 0) (q 1) (s.X_ADJUSTED i) (s.Y_ADJUSTED i)

/-- Neighbour search; ok.py:922-964.  In the Euclidean case the distances are those returned by the
KD-tree (the Euclidean distances), in the geographic case they are recomputed on the sphere. -/
def OK.neighbours {n : ℕ} (env : Env) (s : OK n) (k : ℕ) (q : Fin 2 → ℝ) : Window n :=
  let sel :=
    if s.coordinatesType = "euclidean" then env.knn s.pts q k
    else env.knn (fun i => unitVector (s.X_ADJUSTED i) (s.Y_ADJUSTED i)) (unitVector (q 0) (q 1)) k
  { sel := sel, bd := fun i => s.queryDist q (sel.get i) }

/-- `_exec_loop_moving_window` when the window is larger than the data set; ok.py:722-758. -/
def OK.execLoopBeyond {n : ℕ} (env : Env) (s : OK n) (a : Matrix (Fin (n + 1)) (Fin (n + 1)) ℝ)
    (qs : List (Fin 2 → ℝ)) (mask : List Bool) (k : ℕ) : Py (List (ℝ × ℝ)) :=
  (qs.zip mask).mapM fun p => if p.2 then pure (0, 0) else do
    let γ ← s.variogramFunction s.params
    (s.neighbours env n p.1).beyondBody env γ s.exactValues a k

/-- The moving-window branch; ok.py:922-976.  With `k > n` the KD-tree reports index `n` at distance
infinity for the missing neighbours: on the sphere `X_ADJUSTED[bd_idx]` raises `IndexError`; the C loop
reads and writes past the end of its arrays. -/
def OK.movingWindow {n : ℕ} (env : Env) (s : OK n) (a : Matrix (Fin (n + 1)) (Fin (n + 1)) ℝ)
    (qs : List (Fin 2 → ℝ)) (mask : List Bool) (backend : String) (k : ℕ) :
    Py (List (ℝ × ℝ)) :=
  if k ≤ n then
    let ws := qs.map (s.neighbours env k)
    if backend = "loop" then s.execLoopMovingWindow a ws mask
    else if backend = "C" then s.cExecLoopMovingWindow a ws mask
    else .error .valueError
  else if s.coordinatesType = "geographic" then
    if qs = [] then
      if backend = "loop" then .ok [] else if backend = "C" then do
        let _ ← s.cVariogram
        .ok []
      else .error .valueError
    else .error .indexError
  else if backend = "loop" then s.execLoopBeyond env a qs mask k
  else if backend = "C" then do
    let _ ← s.cVariogram
    return (mask.zipIdx).map fun p => if p.1 then (0, 0) else env.outOfBounds p.2
  else .error .valueError

/-- The branch without moving window; ok.py:977-1010 -/
def OK.globalKrige {n : ℕ} (s : OK n) (a : Matrix (Fin (n + 1)) (Fin (n + 1)) ℝ)
    (qs : List (Fin 2 → ℝ)) (mask : List Bool) (backend : String) : Py (List (ℝ × ℝ)) :=
  let bd : List (Fin n → ℝ) := qs.map fun q => s.queryDist q
  if backend = "vectorized" then s.execVector a bd
  else if backend = "loop" then s.execLoop a bd mask
  else if backend = "C" then s.cExecLoop a bd mask
  else .error .valueError

/-- Shape of the returned arrays; ok.py:1016-1018 -/
def resultShape (args : ExecArgs) : List ℕ :=
  if args.style ∈ ["masked", "grid"] then [args.ypoints.vals.length, args.xpoints.vals.length]
  else [args.xpoints.vals.length]

/-- `execute(...)`; ok.py:760-1020 -/
def OK.execute {n : ℕ} (env : Env) (s : OK n) (args : ExecArgs) : Py ExecResult := do
  if args.style ∉ ["grid", "masked", "points"] then throw .valueError
  if let some k := args.nClosest then
    if k ≤ 1 then throw .valueError
  let a ← s.getKrigingMatrix
  let (pts, mask) ← queryPoints args
  let qs ← s.adjustQuery args pts
  -- ok.py:896-907: fall back to the Python loop if the extension cannot be imported
  let backend := if args.backend = "C" ∧ ¬ env.cAvailable then "loop" else args.backend
  let res ← match args.nClosest with
    | some k => s.movingWindow env a qs mask backend k.toNat
    | none => s.globalKrige a qs mask backend
  return { shape := resultShape args
           z := applyMask args.style mask (res.map Prod.fst)
           ss := applyMask args.style mask (res.map Prod.snd) }

end
end PyKrige
