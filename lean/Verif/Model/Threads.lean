import Verif.Model.Heap3
import Verif.Model.HeapUK
import Verif.Model.HeapUK3

/-!
Several threads of one Python process that construct kriging objects and call `execute`.

The files Model/Heap*.lean say what a call does to memory from beginning to end.  Here a call is a *program*: one
step for every array it makes and every assignment into an array, and one step for every look at the memory.  Between
two steps of a thread, other threads may take steps, in any order.

Memory: the buffers that exist when the threads are started are common to all of them (query arrays, masks, the arrays
and parameter lists of the kriging objects); all threads read and write the same cells.  An array that a thread makes
itself is known to no other thread, because a call hands references to nobody before it returns; it lives in a memory
of that thread.  Steps are atomic; a finer division of the reading steps would make no difference as long as nobody
writes to what is read, which is the claim to be proved.
-/

namespace PyKrige
noncomputable section
open Matrix

/-- A program: finished, with a result or an exception; or one step, which changes the memory as `eff` says, and the
program that follows, which depends on what was in memory. -/
inductive Thr (α : Type) : Type
  | ret (r : Py α)
  | step (eff : Heap → Heap) (k : Heap → Thr α)

/-- `x = t; k(x)`; an exception in `t` ends the program. -/
def Thr.bind {α β : Type} : Thr α → (α → Thr β) → Thr β
  | .ret (.ok a), k => k a
  | .ret (.error e), _ => .ret (.error e)
  | .step eff f, k => .step eff fun h => Thr.bind (f h) k

instance : Monad Thr where
  pure a := .ret (.ok a)
  bind := Thr.bind

/-- A computation on memory as one step. -/
def Thr.atom {α : Type} (m : H α) : Thr α := .step (fun h => (m h).2) fun h => .ret (m h).1

/-- `raise e` -/
def Thr.raise {α : Type} (e : PyErr) : Thr α := .ret (.error e)

/-- A computation on values: no access to memory. -/
def Thr.lift {α : Type} (p : Py α) : Thr α := .ret p

/-- A look at the memory. -/
def Thr.here : Thr Heap := .atom H.here

/-- A new array. -/
def Thr.new (rows cols : ℕ) (f : ℕ → ℕ → ℝ) (isInt : Bool := false) : Thr Arr := .atom (H.new rows cols f isInt)

/-- A new one-dimensional array. -/
def Thr.newList (l : List ℝ) (isInt : Bool := false) : Thr Arr := .atom (H.newList l isInt)

/-- A new boolean array. -/
def Thr.newBools (l : List Bool) : Thr Arr := .atom (H.newBools l)

/-- `a[sel] = f`, in place. -/
def Arr.assignT (a : Arr) (sel : ℕ → ℕ → Prop) (f : ℕ → ℕ → ℝ) : Thr Unit := .atom (a.assign sel f)

/-- `try: t` with the exception, if any, as a result. -/
def Thr.attempt {α : Type} : Thr α → Thr (Py α)
  | .ret r => .ret (.ok r)
  | .step eff k => .step eff fun h => (k h).attempt

/-- A program that runs alone from beginning to end. -/
def Thr.seq {α : Type} : Thr α → H α
  | .ret r => fun h => (r, h)
  | .step eff k => fun h => (k h).seq (eff h)

/-- Threads at some moment: the common buffers, for every thread what it still has to do, and its own memory. -/
structure Threads (ι α : Type) where
  common : ℕ → ℕ × ℕ → ℝ
  prog : ι → Thr α
  own : ι → Heap

section
variable {ι α : Type} [DecidableEq ι]

/-- What thread `i` sees: the common buffers, whose numbers are those below `w`, and its own. -/
def Threads.view (w : ℕ) (T : Threads ι α) (i : ι) : Heap where
  next := (T.own i).next
  buf := fun b => if b < w then T.common b else (T.own i).buf b

/-- Thread `i` takes a step: what it writes into common buffers, all threads see. -/
def Threads.step (w : ℕ) (T : Threads ι α) (i : ι) : Threads ι α :=
  match T.prog i with
  | .ret _ => T
  | .step eff k =>
    let v := T.view w i
    { common := fun b => if b < w then (eff v).buf b else T.common b
      prog := Function.update T.prog i (k v)
      own := Function.update T.own i (eff v) }

/-- The threads take steps in the given order. -/
def Threads.run (w : ℕ) : Threads ι α → List ι → Threads ι α
  | T, [] => T
  | T, i :: l => Threads.run w (T.step w i) l

/-- The threads are started with programs `prog` when the memory is `h`. -/
def Threads.start (h : Heap) (prog : ι → Thr α) : Threads ι α where
  common := h.buf
  prog := prog
  own := fun _ => h

/-- The result or exception of thread `i`, if it has finished. -/
def Threads.result (T : Threads ι α) (i : ι) : Option (Py α) :=
  match T.prog i with
  | .ret r => some r
  | .step _ _ => none

end

/-! ### The methods as programs -/

/-- `np.array(a, copy=True)`; `np.squeeze` and `np.atleast_1d` then return the array itself or a view of it. As `Arr.copy` (Model/Heap.lean), statement by statement. -/
def Arr.copyT (a : Arr) : Thr Arr := do
  let h ← Thr.here
  Thr.new a.rows a.cols (a.get h) a.isInt

/-- `np.vstack((a, b))`: a new array. As `vstack` (Model/Heap.lean), statement by statement. -/
def vstackT (a b : Arr) : Thr Arr := do
  let h ← Thr.here
  Thr.new 2 a.cols (fun r c => if r = 0 then a.get h 0 c else b.get h 0 c) (a.isInt && b.isInt)

/-- `_adjust_for_anisotropy(X, [xc, yc], [scaling], [angle])` for two columns; core.py:138-193.  `X` itself is
changed: `X -= center`. As `adjustForAnisotropy2` (Model/Heap.lean), statement by statement. -/
def adjustForAnisotropy2T (X : Arr) (xc yc scaling angle : ℝ) : Thr Arr := do
  let center : ℕ → ℝ := fun c => if c = 0 then xc else yc
  let angle := angle * Real.pi / 180
  -- X -= center
  if X.isInt then Thr.raise .castingError
  let h ← Thr.here
  X.assignT (fun _ _ => True) fun r c => X.get h r c - center c
  let stretch : Matrix (Fin 2) (Fin 2) ℝ := !![1, 0; 0, scaling]
  let rot : Matrix (Fin 2) (Fin 2) ℝ :=
    !![Real.cos (-angle), -Real.sin (-angle); Real.sin (-angle), Real.cos (-angle)]
  -- X_adj = np.dot(stretch, np.dot(rot_tot, X.T)).T
  let h ← Thr.here
  let prod ← Thr.new 2 X.rows fun k r =>
    (stretch *ᵥ (rot *ᵥ ![X.get h r 0, X.get h r 1])) (if k = 0 then 0 else 1)
  let X_adj := prod.T
  -- X_adj += center
  let h ← Thr.here
  X_adj.assignT (fun _ _ => True) fun r c => X_adj.get h r c + center c
  return X_adj

/-- `np.array(a, copy=True, dtype=np.float64)`.  As `Arr.copyFloat` (Model/Heap.lean), statement by statement. -/
def Arr.copyFloatT (a : Arr) : Thr Arr := do
  let h ← Thr.here
  Thr.new a.rows a.cols (a.get h)

/-- `_make_variogram_parameter_list`; core.py:196-376.  For 'linear', 'power' and 'custom' the list that was
passed is returned itself, in all other cases a new one. As `makeVariogramParameterListRef` (Model/Heap.lean), statement by statement. -/
def makeVariogramParameterListRefT (model : String) (p : ParamRef) : Thr (Option Arr) :=
  match p with
  | .none => pure Option.none
  | .dict d => do
    match ← Thr.lift (makeVariogramParameterList model (.dict d)) with
    | some l => return some (← Thr.newList l)
    | Option.none => return Option.none
  | .list a =>
    if model ∈ ["linear"] then
      if a.cols ≠ 2 then Thr.raise .valueError else pure (some a)
    else if model ∈ ["power"] then
      if a.cols ≠ 3 then Thr.raise .valueError else pure (some a)
    else if model ∈ ["gaussian", "spherical", "exponential", "hole-effect"] then
      if a.cols ≠ 3 then Thr.raise .valueError
      else do
        let h ← Thr.here
        return some (← Thr.newList [a.get h 0 0 - a.get h 0 2, a.get h 0 1, a.get h 0 2])
    else if model ∈ ["custom"] then pure (some a)
    else Thr.raise .valueError
  | .other => Thr.raise .typeError

/-- GSTools part of the constructor and of `update_variogram_model`; ok.py:223-242, 429-447. As `OKRef.resolveModel` (Model/Heap.lean), statement by statement. -/
def OKRef.resolveModelT (env : Env) (coordinatesType : String) (vm : ModelArg) (f : FunArg) (p : ParamRef)
    (scaling angle : ℝ) : Thr (String × Option GsModel × FunArg × ParamRef × ℝ × ℝ) :=
  match vm with
  | .name s => pure (s, Option.none, f, p, scaling, angle)
  | .gstools m => do
    Thr.lift (validateGstools env.gstoolsVersion m)
    if m.fieldDim = 3 then Thr.raise .valueError
    if m.latlon = true ∧ coordinatesType = "euclidean" then Thr.raise .valueError
    let l ← Thr.newList []
    return ("custom", some m, .callable (fun _ => .ok m.vario) "pykrige_vario", .list l, m.anis, m.angle)

/-- Coordinate adjustment in the constructor; ok.py:280-315.  Returns centre, scaling, angle, `X_ADJUSTED`,
`Y_ADJUSTED`. As `OKRef.setupCoordinates` (Model/Heap.lean), statement by statement. -/
def OKRef.setupCoordinatesT (n : ℕ) (X Y : Arr) (coordinatesType : String) (scaling angle : ℝ) :
    Thr (ℝ × ℝ × ℝ × ℝ × Arr × Arr) :=
  if coordinatesType = "euclidean" then do
    let h ← Thr.here
    let xc ← Thr.lift (midrange (X.vec h n))
    let yc ← Thr.lift (midrange (Y.vec h n))
    let S ← vstackT X Y
    let A ← adjustForAnisotropy2T S.T xc yc scaling angle
    return (xc, yc, scaling, angle, A.T.row 0, A.T.row 1)
  else if coordinatesType = "geographic" then
    pure (0, 0, 1, 0, X, Y)
  else Thr.raise .valueError

/-- `_initialize_variogram_model`; core.py:379-534: returns the parameter list it was given, or, when there was
none, the new one made by the fit.  Everything it assigns into (`lags`, `semivariance`, `bins`) it has created. As `initializeVariogramModelRef` (Model/Heap.lean), statement by statement. -/
def initializeVariogramModelRefT {n m : ℕ} (env : Env) (X : Fin n → Fin m → ℝ) (y : Fin n → ℝ) (model : String)
    (vp : Option Arr) (f : VFun) (nlags : ℕ) (weight : Bool) (coordinatesType : String) :
    Thr (List (ℝ × ℝ) × Arr) := do
  let h ← Thr.here
  let r ← Thr.lift (initializeVariogramModel env X y model (vp.map (Arr.list h)) f nlags weight coordinatesType)
  match vp with
  | some a => return (r.1, a)
  | Option.none => return (r.1, ← Thr.newList r.2)

/-- `OrdinaryKriging.__init__`; ok.py:187-377, for `x`, `y`, `z` of length `n`.  As `OKRef.create` (Model/Heap.lean), statement by statement. -/
def OKRef.createT (n : ℕ) (env : Env) (x y z : Arr) (args : OKRefArgs) : Thr OKRef := do
  if args.pseudoInvType ∉ ["pinv", "pinvh"] then Thr.raise .valueError
  let exact ← match args.exactValues with
    | .bool b => pure b
    | .notBool => Thr.raise .valueError
  let (name, model, fArg, pArg, scaling, angle) ← OKRef.resolveModelT env args.coordinatesType
    args.variogramModel args.variogramFunction args.paramRef args.anisotropyScaling args.anisotropyAngle
  let (f, fname) ← Thr.lift (chooseFunction name fArg)
  let X_ORIG ← x.copyFloatT
  let Y_ORIG ← y.copyFloatT
  let Z ← z.copyFloatT
  let (xc, yc, scaling, angle, XA, YA) ←
    OKRef.setupCoordinatesT n X_ORIG Y_ORIG args.coordinatesType scaling angle
  let vp ← makeVariogramParameterListRefT name pArg
  let h ← Thr.here
  let (lags, ps) ← initializeVariogramModelRefT env (pointsOf h n XA YA) (Z.vec h n) name vp f args.nlags
    args.weight args.coordinatesType
  let h ← Thr.here
  let stats ← if args.enableStatistics then
      some <$> Thr.lift (findStatistics (pointsOf h n XA YA) (Z.vec h n) f (ps.list h) args.coordinatesType
        args.pseudoInv)
    else pure Option.none
  return { variogramModel := .name name
           model := model
           exactValues := exact
           coordinatesType := args.coordinatesType
           pseudoInv := args.pseudoInv
           pseudoInvType := args.pseudoInvType
           variogramFunction := f
           functionName := fname
           X_ORIG := X_ORIG
           Y_ORIG := Y_ORIG
           Z := Z
           XCENTER := xc
           YCENTER := yc
           anisotropyScaling := scaling
           anisotropyAngle := angle
           X_ADJUSTED := XA
           Y_ADJUSTED := YA
           lags := lags
           params := ps
           paramsInt := intParams (pArg.deref h) (ps.list h) args.paramsAllInt
           stats := stats }

/-- `_get_kriging_matrix(n)`; ok.py:626-648.  As `OKRef.getKrigingMatrix` (Model/Heap.lean), statement by statement. -/
def OKRef.getKrigingMatrixT (n : ℕ) (o : OKRef) : Thr Arr := do
  let h ← Thr.here
  let s := o.deref h n
  let a ← Thr.new (n + 1) (n + 1) fun _ _ => 0
  let γ ← Thr.lift (s.variogramFunction s.params)
  -- a[:n, :n] = -variogram_function(..., d)
  a.assignT (fun r c => r < n ∧ c < n) fun r c =>
    if hr : r < n then if hc : c < n then -γ (s.dataDist ⟨r, hr⟩ ⟨c, hc⟩) else 0 else 0
  a.assignT (fun r c => r = c) fun _ _ => 0
  a.assignT (fun r _ => r = n) fun _ _ => 1
  a.assignT (fun _ c => c = n) fun _ _ => 1
  a.assignT (fun r c => r = n ∧ c = n) fun _ _ => 0
  return a

open Classical in
/-- The right-hand sides `b` of all points; ok.py:668-672 (the last axis, of length 1, is left out). As `rightHandSides` (Model/Heap.lean), statement by statement. -/
def rightHandSidesT {n : ℕ} (γ : ℝ → ℝ) (exact : Bool) (bd : List (Fin n → ℝ)) : Thr Arr := do
  let b ← Thr.new bd.length (n + 1) fun _ _ => 0
  b.assignT (fun _ c => c < n) fun r c => -γ (bdAt bd r c)
  if (∃ row ∈ bd, ∃ k, |row k| ≤ eps) ∧ exact = true then
    b.assignT (fun r c => c < n ∧ |bdAt bd r c| ≤ eps) fun _ _ => 0
  b.assignT (fun _ c => c = n) fun _ _ => 1
  return b

/-- `_exec_vector(a, bd, mask)`; ok.py:650-683.  As `OKRef.execVector` (Model/Heap.lean), statement by statement. -/
def OKRef.execVectorT (n : ℕ) (o : OKRef) (a : Arr) (bd : List (Fin n → ℝ)) : Thr (Arr × Arr) := do
  let h ← Thr.here
  let s := o.deref h n
  let a_inv ← Thr.lift (invertPython s.pseudoInv s.pseudoInvType (a.mat h (n + 1)))
  let γ ← Thr.lift (s.variogramFunction s.params)
  let b ← rightHandSidesT γ s.exactValues bd
  let h ← Thr.here
  let x : ℕ → Fin (n + 1) → ℝ := fun r => a_inv *ᵥ fun k => b.get h r k
  let zvalues ← Thr.newList ((List.range bd.length).map fun r => ∑ k : Fin n, x r k.castSucc * o.Z.vec h n k)
  let sigmasq ← Thr.newList ((List.range bd.length).map fun r => ∑ k : Fin (n + 1), x r k * -b.get h r k)
  return (zvalues, sigmasq)

open Classical in
/-- The right-hand side `b` of one point; ok.py:707-712 and 745-750 (a column, here laid out as a row). As `rightHandSide` (Model/Heap.lean), statement by statement. -/
def rightHandSideT {k : ℕ} (γ : ℝ → ℝ) (exact : Bool) (bd : Fin k → ℝ) : Thr Arr := do
  let b ← Thr.new 1 (k + 1) fun _ _ => 0
  b.assignT (fun _ c => c < k) fun _ c => if hc : c < k then -γ (bd ⟨c, hc⟩) else 0
  if (∃ i, |bd i| ≤ eps) ∧ exact = true then
    b.assignT (fun _ c => ∃ hc : c < k, |bd ⟨c, hc⟩| ≤ eps) fun _ _ => 0
  b.assignT (fun _ c => c = k) fun _ _ => 1
  return b

/-- Body of the loop of `_exec_loop` at an unmasked point; ok.py:698-718.  As `OKRef.loopBody` (Model/Heap.lean), statement by statement. -/
def OKRef.loopBodyT (n : ℕ) (o : OKRef) (a_inv : Matrix (Fin (n + 1)) (Fin (n + 1)) ℝ) (bd : Fin n → ℝ) :
    Thr (ℝ × ℝ) := do
  let h ← Thr.here
  let s := o.deref h n
  let γ ← Thr.lift (s.variogramFunction s.params)
  let b ← rightHandSideT γ s.exactValues bd
  let h ← Thr.here
  let x := a_inv *ᵥ b.vec h (n + 1)
  return (∑ k : Fin n, x k.castSucc * o.Z.vec h n k, ∑ k, x k * -b.vec h (n + 1) k)

/-- Body of the loop of `_exec_loop_moving_window` at an unmasked point; ok.py:732-756.  As `OKRef.windowBody` (Model/Heap.lean), statement by statement. -/
def OKRef.windowBodyT (n : ℕ) (o : OKRef) (aAll : Arr) (w : Window n) : Thr (ℝ × ℝ) := do
  let k := w.sel.length
  let h ← Thr.here
  let s := o.deref h n
  let a : Matrix (Fin (k + 1)) (Fin (k + 1)) ℝ := (aAll.mat h (n + 1)).submatrix w.selector w.selector
  let γ ← Thr.lift (s.variogramFunction s.params)
  let b ← rightHandSideT γ s.exactValues w.bd
  let h ← Thr.here
  let x ← Thr.lift (scipySolve a (b.vec h (k + 1)))
  return (∑ i : Fin k, x i.castSucc * o.Z.vec h n (w.sel.get i), -∑ i, x i * b.vec h (k + 1) i)

/-- One iteration: compute and assign `zvalues[j]`, `sigmasq[j]`. As `storeResult` (Model/Heap.lean), statement by statement. -/
def storeResultT (v : Thr (ℝ × ℝ)) (zvalues sigmasq : Arr) (j : ℕ) : Thr Unit := do
  let v ← v
  zvalues.assignT (fun _ c => c = j) fun _ _ => v.1
  sigmasq.assignT (fun _ c => c = j) fun _ _ => v.2

/-- The loops of the Python backends, over the unmasked points `j` in order; ok.py:698-718, 732-756. As `fillResults` (Model/Heap.lean), statement by statement. -/
def fillResultsT {B : Type} (body : B → Thr (ℝ × ℝ)) (zvalues sigmasq : Arr) : ℕ → List (B × Bool) → Thr Unit
  | _, [] => pure ()
  | j, (x, masked) :: l =>
    (if masked then pure () else storeResultT (body x) zvalues sigmasq j) >>= fun _ =>
      fillResultsT body zvalues sigmasq (j + 1) l

/-- `np.zeros(npt)` twice, then the loop. As `runLoop` (Model/Heap.lean), statement by statement. -/
def runLoopT {B : Type} (body : B → Thr (ℝ × ℝ)) (l : List (B × Bool)) : Thr (Arr × Arr) := do
  let zvalues ← Thr.new 1 l.length fun _ _ => 0
  let sigmasq ← Thr.new 1 l.length fun _ _ => 0
  fillResultsT body zvalues sigmasq 0 l
  return (zvalues, sigmasq)

/-- Result arrays made by a function on values. As `newResults` (Model/Heap.lean), statement by statement. -/
def newResultsT (p : Py (List (ℝ × ℝ))) : Thr (Arr × Arr) := do
  let l ← Thr.lift p
  return (← Thr.newList (l.map Prod.fst), ← Thr.newList (l.map Prod.snd))

/-- `_exec_loop(a, bd_all, mask)`; ok.py:685-720.  As `OKRef.execLoop` (Model/Heap.lean), statement by statement. -/
def OKRef.execLoopT (n : ℕ) (o : OKRef) (a : Arr) (bdAll : List (Fin n → ℝ)) (mask : List Bool) :
    Thr (Arr × Arr) := do
  let h ← Thr.here
  let a_inv ← Thr.lift (invertPython o.pseudoInv o.pseudoInvType (a.mat h (n + 1)))
  runLoopT (o.loopBodyT n a_inv) (bdAll.zip mask)

/-- The branch without moving window; ok.py:977-1010.  `_c_exec_loop` (lib/cok.pyx:14-96) assigns only into
arrays it has created (`zvalues`, `sigmasq`, `b`, `x`): it is modelled on values. As `OKRef.globalKrige` (Model/Heap.lean), statement by statement. -/
def OKRef.globalKrigeT (n : ℕ) (o : OKRef) (a : Arr) (qs : List (Fin 2 → ℝ)) (mask : List Bool)
    (backend : String) : Thr (Arr × Arr) := do
  let h ← Thr.here
  let s := o.deref h n
  let bd : List (Fin n → ℝ) := qs.map fun q => s.queryDist q
  if backend = "vectorized" then o.execVectorT n a bd
  else if backend = "loop" then o.execLoopT n a bd mask
  else if backend = "C" then newResultsT (s.cExecLoop (a.mat h (n + 1)) bd mask)
  else Thr.raise .valueError

/-- The moving-window branch; ok.py:922-976.  The compiled loop (lib/cok.pyx:98-193) and windows larger than the
data set are modelled on values. As `OKRef.movingWindow` (Model/Heap.lean), statement by statement. -/
def OKRef.movingWindowT (n : ℕ) (env : Env) (o : OKRef) (a : Arr) (qs : List (Fin 2 → ℝ)) (mask : List Bool)
    (backend : String) (k : ℕ) : Thr (Arr × Arr) := do
  let h ← Thr.here
  let s := o.deref h n
  if k ≤ n ∧ backend = "loop" then
    runLoopT (o.windowBodyT n a) ((qs.map (s.neighbours env k)).zip mask)
  else newResultsT (s.movingWindow env (a.mat h (n + 1)) qs mask backend k)

/-- `mask.flatten()`: a new array, row by row. As `Arr.flatten` (Model/Heap.lean), statement by statement. -/
def Arr.flattenT (a : Arr) : Thr Arr := do
  let h ← Thr.here
  Thr.newList ((List.range a.rows).flatMap fun r => (List.range a.cols).map fun c => a.get h r c)

/-- `np.meshgrid(xpts, ypts)` and `flatten()`: new arrays; ok.py:865-867.  As `meshgridRef` (Model/Heap.lean), statement by statement. -/
def meshgridRefT (xpts ypts : Arr) : Thr (Arr × Arr) := do
  let h ← Thr.here
  let g := meshgridFlat (xpts.list h) (ypts.list h)
  let gx ← Thr.newList (g.map Prod.fst) xpts.isInt
  let gy ← Thr.newList (g.map Prod.snd) ypts.isInt
  return (gx, gy)

/-- Query points and mask; ok.py:848-876, 893-894.  `xpts`, `ypts` are the copies made in ok.py:842-843. As `queryPointsRef` (Model/Heap.lean), statement by statement. -/
def queryPointsRefT (args : ExecRefs) (xpts ypts : Arr) : Thr (Arr × Arr × Arr) := do
  let nx := xpts.cols
  let ny := ypts.cols
  if args.style ∈ ["grid", "masked"] then
    if args.style = "masked" then
      match args.mask with
      | none => Thr.raise .ioError
      | some m =>
        if m.rows ≠ ny ∨ m.cols ≠ nx then
          if m.rows = nx ∧ m.cols = ny then
            let mask ← m.T.flattenT
            let g ← meshgridRefT xpts ypts
            return (g.1, g.2, mask)
          else Thr.raise .valueError
        else
          let mask ← m.flattenT
          let g ← meshgridRefT xpts ypts
          return (g.1, g.2, mask)
    else
      let g ← meshgridRefT xpts ypts
      let mask ← Thr.newBools (List.replicate (ny * nx) false)
      return (g.1, g.2, mask)
  else if args.style = "points" then
    if nx ≠ ny then Thr.raise .valueError
    else
      let mask ← Thr.newBools (List.replicate nx false)
      return (xpts, ypts, mask)
  else Thr.raise .valueError

/-- Query coordinates in the frame used for distances; ok.py:878-891.  As `OKRef.adjustQuery` (Model/Heap.lean), statement by statement. -/
def OKRef.adjustQueryT (o : OKRef) (xpts ypts : Arr) : Thr (Arr × Arr) :=
  if o.coordinatesType = "euclidean" then do
    let S ← vstackT xpts ypts
    let A ← adjustForAnisotropy2T S.T o.XCENTER o.YCENTER o.anisotropyScaling o.anisotropyAngle
    return (A.T.row 0, A.T.row 1)
  else pure (xpts, ypts)

/-- `execute(...)`; ok.py:760-1020.  As `OKRef.execute` (Model/Heap.lean), statement by statement. -/
def OKRef.executeT (n : ℕ) (env : Env) (o : OKRef) (args : ExecRefs) : Thr ResultRef := do
  if args.style ∉ ["grid", "masked", "points"] then Thr.raise .valueError
  if let some k := args.nClosest then
    if k ≤ 1 then Thr.raise .valueError
  let xpts ← args.xpoints.copyT
  let ypts ← args.ypoints.copyT
  let a ← o.getKrigingMatrixT n
  let (gx, gy, mask) ← queryPointsRefT args xpts ypts
  let (qx, qy) ← o.adjustQueryT gx gy
  let h ← Thr.here
  let qs : List (Fin 2 → ℝ) := List.zipWith (fun x y => ![x, y]) (qx.list h) (qy.list h)
  let backend := if args.backend = "C" ∧ ¬ env.cAvailable then "loop" else args.backend
  let r ← match args.nClosest with
    | some k => o.movingWindowT n env a qs (mask.bools h) backend k.toNat
    | none => o.globalKrigeT n a qs (mask.bools h) backend
  return { shape := if args.style ∈ ["masked", "grid"] then [ypts.cols, xpts.cols] else [xpts.cols]
           z := r.1, ss := r.2
           mask := if args.style = "masked" then some mask else none }

/-- `a.flatten()`: a new array, row by row. As `Arr3.flatten` (Model/Heap3.lean), statement by statement. -/
def Arr3.flattenT (a : Arr3) : Thr Arr := do
  let h ← Thr.here
  Thr.newList ((List.range a.d0).flatMap fun i => (List.range a.d1).flatMap fun j =>
    (List.range a.d2).map fun k => a.get h i j k)

/-- `np.vstack((a, b, c))`: a new array. As `vstack3` (Model/Heap3.lean), statement by statement. -/
def vstack3T (a b c : Arr) : Thr Arr := do
  let h ← Thr.here
  Thr.new 3 a.cols (fun r i => if r = 0 then a.get h 0 i else if r = 1 then b.get h 0 i else c.get h 0 i)
    (a.isInt && b.isInt && c.isInt)

/-- `_adjust_for_anisotropy(X, [xc, yc, zc], [scaling_y, scaling_z], [angle_x, angle_y, angle_z])` for three columns;
core.py:138-193.  `X` itself is changed: `X -= center`. As `adjustForAnisotropy3` (Model/Heap3.lean), statement by statement. -/
def adjustForAnisotropy3T (X : Arr) (xc yc zc : ℝ) (an : Aniso3) : Thr Arr := do
  let center : ℕ → ℝ := fun c => if c = 0 then xc else if c = 1 then yc else zc
  let a0 := an.angleX * Real.pi / 180
  let a1 := an.angleY * Real.pi / 180
  let a2 := an.angleZ * Real.pi / 180
  -- X -= center
  if X.isInt then Thr.raise .castingError
  let h ← Thr.here
  X.assignT (fun _ _ => True) fun r c => X.get h r c - center c
  let stretch : Matrix (Fin 3) (Fin 3) ℝ := !![1, 0, 0; 0, an.scalingY, 0; 0, 0, an.scalingZ]
  let rotate_x : Matrix (Fin 3) (Fin 3) ℝ :=
    !![1, 0, 0; 0, Real.cos (-a0), -Real.sin (-a0); 0, Real.sin (-a0), Real.cos (-a0)]
  let rotate_y : Matrix (Fin 3) (Fin 3) ℝ :=
    !![Real.cos (-a1), 0, Real.sin (-a1); 0, 1, 0; -Real.sin (-a1), 0, Real.cos (-a1)]
  let rotate_z : Matrix (Fin 3) (Fin 3) ℝ :=
    !![Real.cos (-a2), -Real.sin (-a2), 0; Real.sin (-a2), Real.cos (-a2), 0; 0, 0, 1]
  let rot_tot := rotate_z * (rotate_y * rotate_x)
  -- X_adj = np.dot(stretch, np.dot(rot_tot, X.T)).T
  let h ← Thr.here
  let prod ← Thr.new 3 X.rows fun k r =>
    (stretch *ᵥ (rot_tot *ᵥ ![X.get h r 0, X.get h r 1, X.get h r 2])) (if k = 0 then 0 else if k = 1 then 1 else 2)
  let X_adj := prod.T
  -- X_adj += center
  let h ← Thr.here
  X_adj.assignT (fun _ _ => True) fun r c => X_adj.get h r c + center c
  return X_adj

/-- GSTools part of constructor and update; ok3d.py:233-249, 433-449. As `OK3DRef.resolveModel` (Model/Heap3.lean), statement by statement. -/
def OK3DRef.resolveModelT (env : Env) (vm : ModelArg) (f : FunArg) (p : ParamRef) (an : Aniso3) :
    Thr (String × Option GsModel × FunArg × ParamRef × Aniso3) :=
  match vm with
  | .name s => pure (s, Option.none, f, p, an)
  | .gstools m => do
    Thr.lift (validateGstools env.gstoolsVersion m)
    if m.fieldDim < 3 then Thr.raise .valueError
    let l ← Thr.newList []
    return ("custom", some m, .callable (fun _ => .ok m.vario) "pykrige_vario", .list l,
      { scalingY := m.anisY, scalingZ := m.anisZ, angleX := m.angleX, angleY := m.angleY
        angleZ := m.angleZ })

/-- `OrdinaryKriging3D.__init__`; ok3d.py:198-366, for arrays of length `n`.  As `OK3DRef.create` (Model/Heap3.lean), statement by statement. -/
def OK3DRef.createT (n : ℕ) (env : Env) (x y z val : Arr) (args : OK3DRefArgs) : Thr OK3DRef := do
  if args.pseudoInvType ∉ ["pinv", "pinvh"] then Thr.raise .valueError
  let exact ← match args.exactValues with
    | .bool b => pure b
    | .notBool => Thr.raise .valueError
  let (name, model, fArg, pArg, an) ← OK3DRef.resolveModelT env args.variogramModel args.variogramFunction
    args.paramRef args.aniso
  let (f, fname) ← Thr.lift (chooseFunction name fArg)
  let X_ORIG ← x.copyFloatT
  let Y_ORIG ← y.copyFloatT
  let Z_ORIG ← z.copyFloatT
  let VALUES ← val.copyFloatT
  let h ← Thr.here
  let xc ← Thr.lift (midrange (X_ORIG.vec h n))
  let yc ← Thr.lift (midrange (Y_ORIG.vec h n))
  let zc ← Thr.lift (midrange (Z_ORIG.vec h n))
  let S ← vstack3T X_ORIG Y_ORIG Z_ORIG
  let A ← adjustForAnisotropy3T S.T xc yc zc an
  let vp ← makeVariogramParameterListRefT name pArg
  let h ← Thr.here
  let (lags, ps) ← initializeVariogramModelRefT env (pointsOf3 h n (A.T.row 0) (A.T.row 1) (A.T.row 2))
    (VALUES.vec h n) name vp f args.nlags args.weight "euclidean"
  let h ← Thr.here
  let stats ← Thr.lift (findStatistics (pointsOf3 h n (A.T.row 0) (A.T.row 1) (A.T.row 2)) (VALUES.vec h n) f
    (ps.list h) "euclidean" args.pseudoInv)
  return { variogramModel := .name name
           model := model
           exactValues := exact
           pseudoInv := args.pseudoInv
           pseudoInvType := args.pseudoInvType
           variogramFunction := f
           functionName := fname
           X_ORIG := X_ORIG
           Y_ORIG := Y_ORIG
           Z_ORIG := Z_ORIG
           VALUES := VALUES
           XCENTER := xc
           YCENTER := yc
           ZCENTER := zc
           aniso := an
           X_ADJUSTED := A.T.row 0
           Y_ADJUSTED := A.T.row 1
           Z_ADJUSTED := A.T.row 2
           lags := lags
           params := ps
           stats := some stats }

/-- `_get_kriging_matrix(n)`; ok3d.py:603-622.  As `OK3DRef.getKrigingMatrix` (Model/Heap3.lean), statement by statement. -/
def OK3DRef.getKrigingMatrixT (n : ℕ) (o : OK3DRef) : Thr Arr := do
  let h ← Thr.here
  let s := o.deref h n
  let a ← Thr.new (n + 1) (n + 1) fun _ _ => 0
  let γ ← Thr.lift (s.variogramFunction s.params)
  -- a[:n, :n] = -variogram_function(..., d)
  a.assignT (fun r c => r < n ∧ c < n) fun r c =>
    if hr : r < n then if hc : c < n then -γ (euclid (s.pts ⟨r, hr⟩) (s.pts ⟨c, hc⟩)) else 0 else 0
  a.assignT (fun r c => r = c) fun _ _ => 0
  a.assignT (fun r _ => r = n) fun _ _ => 1
  a.assignT (fun _ c => c = n) fun _ _ => 1
  a.assignT (fun r c => r = n ∧ c = n) fun _ _ => 0
  return a

/-- `_exec_vector(a, bd, mask)`; ok3d.py:624-657.  As `OK3DRef.execVector` (Model/Heap3.lean), statement by statement. -/
def OK3DRef.execVectorT (n : ℕ) (o : OK3DRef) (a : Arr) (bd : List (Fin n → ℝ)) : Thr (Arr × Arr) := do
  let h ← Thr.here
  let s := o.deref h n
  let a_inv ← Thr.lift (invertPython s.pseudoInv s.pseudoInvType (a.mat h (n + 1)))
  let γ ← Thr.lift (s.variogramFunction s.params)
  let b ← rightHandSidesT γ s.exactValues bd
  let h ← Thr.here
  let x : ℕ → Fin (n + 1) → ℝ := fun r => a_inv *ᵥ fun k => b.get h r k
  let kvalues ← Thr.newList ((List.range bd.length).map fun r => ∑ k : Fin n, x r k.castSucc * o.VALUES.vec h n k)
  let sigmasq ← Thr.newList ((List.range bd.length).map fun r => ∑ k : Fin (n + 1), x r k * -b.get h r k)
  return (kvalues, sigmasq)

/-- Body of the loop of `_exec_loop` at an unmasked point; ok3d.py:673-693.  As `OK3DRef.loopBody` (Model/Heap3.lean), statement by statement. -/
def OK3DRef.loopBodyT (n : ℕ) (o : OK3DRef) (a_inv : Matrix (Fin (n + 1)) (Fin (n + 1)) ℝ) (bd : Fin n → ℝ) :
    Thr (ℝ × ℝ) := do
  let h ← Thr.here
  let s := o.deref h n
  let γ ← Thr.lift (s.variogramFunction s.params)
  let b ← rightHandSideT γ s.exactValues bd
  let h ← Thr.here
  let x := a_inv *ᵥ b.vec h (n + 1)
  return (∑ k : Fin n, x k.castSucc * o.VALUES.vec h n k, ∑ k, x k * -b.vec h (n + 1) k)

/-- Body of the loop of `_exec_loop_moving_window` at an unmasked point; ok3d.py:709-731.  As `OK3DRef.windowBody` (Model/Heap3.lean), statement by statement. -/
def OK3DRef.windowBodyT (n : ℕ) (o : OK3DRef) (aAll : Arr) (w : Window n) : Thr (ℝ × ℝ) := do
  let k := w.sel.length
  let h ← Thr.here
  let s := o.deref h n
  let a : Matrix (Fin (k + 1)) (Fin (k + 1)) ℝ := (aAll.mat h (n + 1)).submatrix w.selector w.selector
  let γ ← Thr.lift (s.variogramFunction s.params)
  let b ← rightHandSideT γ s.exactValues w.bd
  let h ← Thr.here
  let x ← Thr.lift (scipySolve a (b.vec h (k + 1)))
  return (∑ i : Fin k, x i.castSucc * o.VALUES.vec h n (w.sel.get i), -∑ i, x i * b.vec h (k + 1) i)

/-- `_exec_loop(a, bd_all, mask)`; ok3d.py:659-695.  As `OK3DRef.execLoop` (Model/Heap3.lean), statement by statement. -/
def OK3DRef.execLoopT (n : ℕ) (o : OK3DRef) (a : Arr) (bdAll : List (Fin n → ℝ)) (mask : List Bool) :
    Thr (Arr × Arr) := do
  let h ← Thr.here
  let a_inv ← Thr.lift (invertPython o.pseudoInv o.pseudoInvType (a.mat h (n + 1)))
  runLoopT (o.loopBodyT n a_inv) (bdAll.zip mask)

/-- The branch without moving window; ok3d.py:917-927. As `OK3DRef.globalKrige` (Model/Heap3.lean), statement by statement. -/
def OK3DRef.globalKrigeT (n : ℕ) (o : OK3DRef) (a : Arr) (qs : List (Fin 3 → ℝ)) (mask : List Bool)
    (backend : String) : Thr (Arr × Arr) := do
  let h ← Thr.here
  let s := o.deref h n
  let bd : List (Fin n → ℝ) := qs.map fun q => s.queryDist q
  if backend = "vectorized" then o.execVectorT n a bd
  else if backend = "loop" then o.execLoopT n a bd mask
  else Thr.raise .valueError

/-- The moving-window branch; ok3d.py:904-916.  Windows larger than the data set, and the errors of the KD-tree, are
modelled on values. As `OK3DRef.movingWindow` (Model/Heap3.lean), statement by statement. -/
def OK3DRef.movingWindowT (n : ℕ) (env : Env) (o : OK3DRef) (a : Arr) (qs : List (Fin 3 → ℝ)) (mask : List Bool)
    (backend : String) (k : ℤ) : Thr (Arr × Arr) := do
  let h ← Thr.here
  let s := o.deref h n
  if 1 < k ∧ k ≤ n ∧ backend = "loop" then
    runLoopT (o.windowBodyT n a) ((qs.map (s.neighbours env k.toNat)).zip mask)
  else newResultsT (s.movingWindow env (a.mat h (n + 1)) qs mask backend k)

/-- `np.meshgrid(zpts, ypts, xpts, indexing="ij")` and `flatten()`: new arrays; ok3d.py:861-864.  As `meshgridRef3` (Model/Heap3.lean), statement by statement. -/
def meshgridRef3T (xpts ypts zpts : Arr) : Thr (Arr × Arr × Arr) := do
  let h ← Thr.here
  let g := meshgridFlat3 (xpts.list h) (ypts.list h) (zpts.list h)
  let gx ← Thr.newList (g.map Prod.fst) xpts.isInt
  let gy ← Thr.newList (g.map fun p => p.2.1) ypts.isInt
  let gz ← Thr.newList (g.map fun p => p.2.2) zpts.isInt
  return (gx, gy, gz)

/-- Query points and mask; ok3d.py:841-878, 887-888.  `xpts`, `ypts`, `zpts` are the copies made in ok3d.py:833-835.
In the 'points' branch the explicit length check uses `and`; lengths that pass it but differ make `np.vstack` raise
`ValueError` (ok3d.py:881). As `queryPoints3Ref` (Model/Heap3.lean), statement by statement. -/
def queryPoints3RefT (args : ExecRefs3) (xpts ypts zpts : Arr) : Thr ((Arr × Arr × Arr) × Arr) := do
  let nx := xpts.cols
  let ny := ypts.cols
  let nz := zpts.cols
  if args.style ∈ ["grid", "masked"] then
    if args.style = "masked" then
      match args.mask with
      | none => Thr.raise .ioError
      | some (.wrongNdim _) => Thr.raise .valueError
      | some (.arr m) =>
        if m.d0 ≠ nz ∨ m.d1 ≠ ny ∨ m.d2 ≠ nx then
          if m.d0 = nx ∧ m.d2 = nz ∧ m.d1 = ny then
            let mask ← m.swap.flattenT
            let g ← meshgridRef3T xpts ypts zpts
            return (g, mask)
          else Thr.raise .valueError
        else
          let mask ← m.flattenT
          let g ← meshgridRef3T xpts ypts zpts
          return (g, mask)
    else
      let g ← meshgridRef3T xpts ypts zpts
      let mask ← Thr.newBools (List.replicate (nz * ny * nx) false)
      return (g, mask)
  else if args.style = "points" then
    if nx ≠ ny ∧ ny ≠ nz then Thr.raise .valueError
    else if nx ≠ ny ∨ ny ≠ nz then Thr.raise .valueError
    else
      let mask ← Thr.newBools (List.replicate nx false)
      return ((xpts, ypts, zpts), mask)
  else Thr.raise .valueError

/-- `_adjust_for_anisotropy` on the query points; ok3d.py:880-885.  The result holds one point per row. As `adjustQuery3` (Model/Heap3.lean), statement by statement. -/
def adjustQuery3T (xc yc zc : ℝ) (an : Aniso3) (g : Arr × Arr × Arr) : Thr Arr := do
  let S ← vstack3T g.1 g.2.1 g.2.2
  adjustForAnisotropy3T S.T xc yc zc an

/-- `execute(...)`; ok3d.py:735-932.  As `OK3DRef.execute` (Model/Heap3.lean), statement by statement. -/
def OK3DRef.executeT (n : ℕ) (env : Env) (o : OK3DRef) (args : ExecRefs3) : Thr ResultRef := do
  if args.style ∉ ["grid", "masked", "points"] then Thr.raise .valueError
  let xpts ← args.xpoints.copyT
  let ypts ← args.ypoints.copyT
  let zpts ← args.zpoints.copyT
  let a ← o.getKrigingMatrixT n
  let (g, mask) ← queryPoints3RefT args xpts ypts zpts
  let A ← adjustQuery3T o.XCENTER o.YCENTER o.ZCENTER o.aniso g
  let h ← Thr.here
  let r ← match args.nClosest with
    | some k => o.movingWindowT n env a (A.rows3 h) (mask.bools h) args.backend k
    | none => o.globalKrigeT n a (A.rows3 h) (mask.bools h) args.backend
  return { shape := if args.style ∈ ["masked", "grid"] then [zpts.cols, ypts.cols, xpts.cols] else [xpts.cols]
           z := r.1, ss := r.2
           mask := if args.style = "masked" then some mask else none }

/-- Shape check, transposition and copies of the external drift; uk.py:411-438.  `np.array(e.T)`, `np.array(e)` and
`np.array(x).flatten()` make new arrays. As `setupExternalRef` (Model/HeapUK.lean), statement by statement. -/
def setupExternalRefT (args : UKRefArgs) : Thr (Arr × Arr × Arr) :=
  match args.externalRef with
  | none => Thr.raise .valueError
  | some e =>
    match args.externalXRef, args.externalYRef with
    | some x, some y =>
      if e.rows ≠ y.cols ∨ e.cols ≠ x.cols then
        if e.rows = x.cols ∧ e.cols = y.cols then do
          let array ← e.T.copyT
          let xs ← x.copyT
          let ys ← y.copyT
          return (array, xs, ys)
        else Thr.raise .valueError
      else do
        let array ← e.copyT
        let xs ← x.copyT
        let ys ← y.copyT
        return (array, xs, ys)
    | _, _ => Thr.raise .valueError

/-- The `external_Z` part of the constructor; uk.py:410-443.  `z_scalars` is a new array filled by
`_calculate_data_point_zscalars`. As `setupExternalZRef` (Model/HeapUK.lean), statement by statement. -/
def setupExternalZRefT (n : ℕ) (X Y : Arr) (args : UKRefArgs) : Thr (Option ExtRef) :=
  if "external_Z" ∈ args.driftTerms then do
    let (array, xs, ys) ← setupExternalRefT args
    let h ← Thr.here
    let zs ← Thr.lift ((extGrid h array xs ys).atData (X.vec h n) (Y.vec h n))
    let scalars ← Thr.newList (List.ofFn zs)
    return some { array := array, xs := xs, ys := ys, scalars := scalars }
  else pure none

/-- The `point_log` part of the constructor; uk.py:445-466.  As `setupPointLogRef` (Model/HeapUK.lean), statement by statement. -/
def setupPointLogRefT (xc yc scaling angle : ℝ) (args : UKRefArgs) : Thr (Option Arr) :=
  if "point_log" ∈ args.driftTerms then
    match args.pointDriftRef with
    | none => Thr.raise .valueError
    | some p => do
      let point_log ← p.copyT
      let arr ← Thr.new point_log.rows 3 fun _ _ => 0
      let h ← Thr.here
      -- self.point_log_array[:, 2] = point_log[:, 2]
      arr.assignT (fun _ c => c = 2) fun r _ => point_log.get h r 2
      let S ← vstackT (point_log.T.row 0) (point_log.T.row 1)
      let A ← adjustForAnisotropy2T S.T xc yc scaling angle
      let h ← Thr.here
      -- self.point_log_array[:, :2] = ...
      arr.assignT (fun _ c => c < 2) fun r c => A.get h r c
      return some arr
  else pure none

/-- The loop over the specified drift arrays: each is copied, then its length is checked; uk.py:482-492,
uk3d.py:422-432.  As `copyTerms` (Model/HeapUK.lean), statement by statement. -/
def copyTermsT (n : ℕ) : List Arr → Thr (List Arr)
  | [] => pure []
  | t :: ts => do
    let specified ← t.copyT
    if specified.cols ≠ n then Thr.raise .valueError
    let rest ← copyTermsT n ts
    return specified :: rest

/-- The `specified` part of the constructor; uk.py:468-493, uk3d.py:408-433.  As `setupSpecifiedRef` (Model/HeapUK.lean), statement by statement. -/
def setupSpecifiedRefT (n : ℕ) (driftTerms : List String) (arg : ListArg Arr) : Thr (Option (List Arr)) :=
  if "specified" ∈ driftTerms then
    match arg with
    | .notList => Thr.raise .typeError
    | .list [] => Thr.raise .valueError
    | .list (t :: ts) => do
      let l ← copyTermsT n (t :: ts)
      return some l
  else pure none

/-- `UniversalKriging.__init__`; uk.py:220-510, for `x`, `y`, `z` of length `n`.  As `UKRef.create` (Model/HeapUK.lean), statement by statement. -/
def UKRef.createT (n : ℕ) (env : Env) (x y z : Arr) (args : UKRefArgs) : Thr UKRef := do
  let core ← OKRef.createT n env x y z args.core
  let ext ← setupExternalZRefT n core.X_ORIG core.Y_ORIG args
  let plog ← setupPointLogRefT core.XCENTER core.YCENTER core.anisotropyScaling core.anisotropyAngle args
  let spec ← setupSpecifiedRefT n args.driftTerms args.specifiedRef
  let func ← Thr.lift (setupFunctionalTerm args.driftTerms args.functionalDrift)
  return { core := core
           drift := { regionalLinear := decide ("regional_linear" ∈ args.driftTerms)
                      pointLog := plog, externalZ := ext, specified := spec, functional := func } }

/-- `_get_kriging_matrix(n, n_withdrifts)`; uk.py:861-920: the array is made with `np.zeros` and filled. As `UKRef.getKrigingMatrix` (Model/HeapUK.lean), statement by statement. -/
def UKRef.getKrigingMatrixT (n : ℕ) (o : UKRef) : Thr Arr := do
  let h ← Thr.here
  let s := o.deref h n
  let A ← Thr.lift s.getKrigingMatrix
  Thr.new (s.nWithDrifts + 1) (s.nWithDrifts + 1) fun r c =>
    if hr : r < s.nWithDrifts + 1 then if hc : c < s.nWithDrifts + 1 then A.1 ⟨r, hr⟩ ⟨c, hc⟩ else 0 else 0

/-- The call of `_exec_vector` or `_exec_loop`, which return new arrays; uk.py:1300-1318.  As `UK.runBackend` (Model/HeapUK.lean), statement by statement. -/
def UK.runBackendT {n : ℕ} (s : UK n) (backend : String) (A : Matrix (Fin (s.nWithDrifts + 1)) (Fin (s.nWithDrifts + 1)) ℝ)
    (qs : List (UKQuery n)) (mask : List Bool) (spec : List (List ℝ)) : Thr (Arr × Arr) :=
  if backend = "vectorized" then newResultsT (Prod.fst <$> s.execVector A qs spec)
  else if backend = "loop" then newResultsT (Prod.fst <$> s.execLoop A qs mask spec)
  else Thr.raise .valueError

/-- `execute(...)`; uk.py:1090-1328.  `xy_points_original` is a new array made by `np.concatenate`: a value. As `UKRef.execute` (Model/HeapUK.lean), statement by statement. -/
def UKRef.executeT (n : ℕ) (o : UKRef) (args : UKExecRefs) : Thr ResultRef := do
  if args.toExec.style ∉ ["grid", "masked", "points"] then Thr.raise .valueError
  let xpts ← args.toExec.xpoints.copyT
  let ypts ← args.toExec.ypoints.copyT
  let a ← o.getKrigingMatrixT n
  let (gx, gy, mask) ← queryPointsRefT args.toExec xpts ypts
  let grids ← Thr.lift (o.specGrids args xpts.cols ypts.cols)
  let h ← Thr.here
  let orig := List.zip (gx.list h) (gy.list h)
  let (qx, qy) ← o.core.adjustQueryT gx gy
  let h ← Thr.here
  let qs : List (UKQuery n) := (List.zipIdx (List.zip orig (List.zip (qx.list h) (qy.list h)))).map fun p =>
    { j := p.2, xo := p.1.1.1, yo := p.1.1.2, adj := ![p.1.2.1, p.1.2.2]
      bd := fun i => euclid ![p.1.2.1, p.1.2.2] (pointsOf h n o.core.X_ADJUSTED o.core.Y_ADJUSTED i) }
  let spec := grids.map (Arr.flat h)
  let s := o.deref h n
  let A := a.mat h (s.nWithDrifts + 1)
  let r ← s.runBackendT args.toExec.backend A qs (mask.bools h) spec
  return { shape := if args.toExec.style ∈ ["masked", "grid"] then [ypts.cols, xpts.cols] else [xpts.cols]
           z := r.1, ss := r.2
           mask := if args.toExec.style = "masked" then some mask else none }

/-- `UniversalKriging3D.__init__`; uk3d.py:215-450, for arrays of length `n`.  As `UK3DRef.create` (Model/HeapUK3.lean), statement by statement. -/
def UK3DRef.createT (n : ℕ) (env : Env) (x y z val : Arr) (args : UK3DRefArgs) : Thr UK3DRef := do
  let core ← OK3DRef.createT n env x y z val args.core
  let spec ← setupSpecifiedRefT n args.driftTerms args.specifiedRef
  let func ← Thr.lift (setupFunctionalTerm args.driftTerms args.functionalDrift)
  return { core := core
           drift := { regionalLinear := decide ("regional_linear" ∈ args.driftTerms)
                      specified := spec, functional := func } }

/-- `_get_kriging_matrix(n, n_withdrifts)`; uk3d.py:688-737: the array is made with `np.zeros` and filled. As `UK3DRef.getKrigingMatrix` (Model/HeapUK3.lean), statement by statement. -/
def UK3DRef.getKrigingMatrixT (n : ℕ) (o : UK3DRef) : Thr Arr := do
  let h ← Thr.here
  let s := o.deref h n
  let A ← Thr.lift s.getKrigingMatrix
  Thr.new (s.nWithDrifts + 1) (s.nWithDrifts + 1) fun r c =>
    if hr : r < s.nWithDrifts + 1 then if hc : c < s.nWithDrifts + 1 then A.1 ⟨r, hr⟩ ⟨c, hc⟩ else 0 else 0

/-- The call of `_exec_vector` or `_exec_loop`, which return new arrays; uk3d.py:1121-1135.  As `UK3D.runBackend` (Model/HeapUK3.lean), statement by statement. -/
def UK3D.runBackendT {n : ℕ} (s : UK3D n) (backend : String)
    (A : Matrix (Fin (s.nWithDrifts + 1)) (Fin (s.nWithDrifts + 1)) ℝ)
    (qs : List (UK3Query n)) (mask : List Bool) (spec : List (List ℝ)) : Thr (Arr × Arr) :=
  if backend = "vectorized" then newResultsT (Prod.fst <$> s.execVector A qs spec)
  else if backend = "loop" then newResultsT (Prod.fst <$> s.execLoop A qs mask spec)
  else Thr.raise .valueError

/-- `execute(...)`; uk3d.py:877-1146.  `xyz_points` and `xyz_data` are new arrays made by `np.concatenate`: values. As `UK3DRef.execute` (Model/HeapUK3.lean), statement by statement. -/
def UK3DRef.executeT (n : ℕ) (o : UK3DRef) (args : UK3DExecRefs) : Thr ResultRef := do
  if args.toExec.style ∉ ["grid", "masked", "points"] then Thr.raise .valueError
  let xpts ← args.toExec.xpoints.copyT
  let ypts ← args.toExec.ypoints.copyT
  let zpts ← args.toExec.zpoints.copyT
  let a ← o.getKrigingMatrixT n
  let (g, mask) ← queryPoints3RefT args.toExec xpts ypts zpts
  let grids ← Thr.lift (o.specGrids args xpts.cols ypts.cols zpts.cols)
  let A ← adjustQuery3T o.core.XCENTER o.core.YCENTER o.core.ZCENTER o.core.aniso g
  let h ← Thr.here
  let s := o.deref h n
  let qs : List (UK3Query n) := (A.rows3 h).zipIdx.map fun p =>
    { j := p.2, xyz := zyx p.1, bd := fun i => euclid (zyx p.1) (zyx (s.pts i)) }
  let r ← s.runBackendT args.toExec.backend (a.mat h (s.nWithDrifts + 1)) qs (mask.bools h) (grids.map (SpecRef3.flat h))
  return { shape := if args.toExec.style ∈ ["masked", "grid"] then [zpts.cols, ypts.cols, xpts.cols] else [xpts.cols]
           z := r.1, ss := r.2
           mask := if args.toExec.style = "masked" then some mask else none }

end
end PyKrige
