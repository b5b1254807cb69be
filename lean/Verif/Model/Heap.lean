import Verif.Model.History

/-!
Arrays by reference.  The other model files treat arrays as values.  Here numpy arrays (and Python lists of
numbers) live in buffers of a heap, a Python variable holds a *reference* (a view: buffer plus index map), several
references may share a buffer, and `a[...] = v`, `a -= v`, `a += v` change the buffer, so that every other
reference to it sees the change.

Temporaries that the code creates and never assigns into (results of `cdist`, `np.dot`, `np.cos`, ...) are
represented by their values.  Values are real numbers; a boolean array holds 0 for `False` and anything else for
`True`.
-/

namespace PyKrige
noncomputable section
open Matrix

/-- The memory: buffers `0 .. next-1` are in use. -/
structure Heap where
  next : ℕ
  buf : ℕ → ℕ × ℕ → ℝ

/-- A computation on the heap that may raise; what it changed before raising stays changed. -/
def H (α : Type) : Type := Heap → Py α × Heap

instance : Monad H where
  pure a := fun h => (.ok a, h)
  bind m k := fun h => match m h with
    | (.ok a, h') => k a h'
    | (.error e, h') => (.error e, h')

/-- `raise e` -/
def H.raise {α : Type} (e : PyErr) : H α := fun h => (.error e, h)

/-- A computation on values. -/
def H.lift {α : Type} (p : Py α) : H α := fun h => (p, h)

/-- The memory at this point, for reading. -/
def H.here : H Heap := fun h => (.ok h, h)

/-- A reference to an array (one-dimensional ones have one row): element `(r, c)` is in cell `cell r c` of the
buffer. -/
structure Arr where
  buf : ℕ
  rows : ℕ
  cols : ℕ
  cell : ℕ → ℕ → ℕ × ℕ
  /-- the array has an integer dtype -/
  isInt : Bool := false

/-- Element `(r, c)`. -/
def Arr.get (h : Heap) (a : Arr) (r c : ℕ) : ℝ := h.buf a.buf (a.cell r c)

/-- The elements of a one-dimensional array. -/
def Arr.list (h : Heap) (a : Arr) : List ℝ := (List.range a.cols).map (a.get h 0)

/-- The elements of a one-dimensional array of length `n`. -/
def Arr.vec (h : Heap) (a : Arr) (n : ℕ) : Fin n → ℝ := fun i => a.get h 0 i

/-- A new array with the given elements. -/
def H.new (rows cols : ℕ) (f : ℕ → ℕ → ℝ) (isInt : Bool := false) : H Arr := fun h =>
  (.ok { buf := h.next, rows := rows, cols := cols, cell := fun r c => (r, c), isInt := isInt },
   { next := h.next + 1
     buf := fun b => if b = h.next then fun p => f p.1 p.2 else h.buf b })

/-- A new one-dimensional array (or list) with the given elements. -/
def H.newList (l : List ℝ) (isInt : Bool := false) : H Arr :=
  H.new 1 l.length (fun _ c => l.getD c 0) isInt

open Classical in
/-- `a[sel] = f`, in place: every element whose index is selected is assigned. -/
def Arr.assign (a : Arr) (sel : ℕ → ℕ → Prop) (f : ℕ → ℕ → ℝ) : H Unit := fun h =>
  (.ok (), { h with
    buf := fun b p =>
      if hb : b = a.buf ∧ ∃ x : ℕ × ℕ, x.1 < a.rows ∧ x.2 < a.cols ∧ sel x.1 x.2 ∧ a.cell x.1 x.2 = p then
        f (Classical.choose hb.2).1 (Classical.choose hb.2).2
      else h.buf b p })

/-- `a.T`: a view. -/
def Arr.T (a : Arr) : Arr := { a with rows := a.cols, cols := a.rows, cell := fun r c => a.cell c r }

/-- `a[k]`, also the `k`-th item when unpacking `x, y = a`: a view. -/
def Arr.row (a : Arr) (k : ℕ) : Arr := { a with rows := 1, cell := fun _ c => a.cell k c }

/-- `np.array(a, copy=True)`; `np.squeeze` and `np.atleast_1d` then return the array itself or a view of it. -/
def Arr.copy (a : Arr) : H Arr := do
  let h ← H.here
  H.new a.rows a.cols (a.get h) a.isInt

/-- `np.array(a, copy=True, dtype=np.float64)` -/
def Arr.copyFloat (a : Arr) : H Arr := do
  let h ← H.here
  H.new a.rows a.cols (a.get h)

/-- `np.vstack((a, b))`: a new array. -/
def vstack (a b : Arr) : H Arr := do
  let h ← H.here
  H.new 2 a.cols (fun r c => if r = 0 then a.get h 0 c else b.get h 0 c) (a.isInt && b.isInt)

/-- `_adjust_for_anisotropy(X, [xc, yc], [scaling], [angle])` for two columns; core.py:138-193.  `X` itself is
changed: `X -= center`. -/
def adjustForAnisotropy2 (X : Arr) (xc yc scaling angle : ℝ) : H Arr := do
  let center : ℕ → ℝ := fun c => if c = 0 then xc else yc
  let angle := angle * Real.pi / 180
  -- X -= center
  if X.isInt then H.raise .castingError
  let h ← H.here
  X.assign (fun _ _ => True) fun r c => X.get h r c - center c
  let stretch : Matrix (Fin 2) (Fin 2) ℝ := !![1, 0; 0, scaling]
  let rot : Matrix (Fin 2) (Fin 2) ℝ :=
    !![Real.cos (-angle), -Real.sin (-angle); Real.sin (-angle), Real.cos (-angle)]
  -- X_adj = np.dot(stretch, np.dot(rot_tot, X.T)).T
  let h ← H.here
  let prod ← H.new 2 X.rows fun k r =>
    (stretch *ᵥ (rot *ᵥ ![X.get h r 0, X.get h r 1])) (if k = 0 then 0 else 1)
  let X_adj := prod.T
  -- X_adj += center
  let h ← H.here
  X_adj.assign (fun _ _ => True) fun r c => X_adj.get h r c + center c
  return X_adj

/-! ### The `OrdinaryKriging` object -/

/-- The attributes of an `OrdinaryKriging` object (compare `OK`): data arrays and the parameter list are
references. -/
structure OKRef where
  variogramModel : ModelArg
  model : Option GsModel
  exactValues : Bool
  coordinatesType : String
  pseudoInv : Bool
  pseudoInvType : String
  variogramFunction : VFun
  functionName : String
  X_ORIG : Arr
  Y_ORIG : Arr
  Z : Arr
  XCENTER : ℝ
  YCENTER : ℝ
  anisotropyScaling : ℝ
  anisotropyAngle : ℝ
  X_ADJUSTED : Arr
  Y_ADJUSTED : Arr
  lags : List (ℝ × ℝ)
  params : Arr
  paramsInt : Bool
  stats : Option Stats

/-- What a method that looks at the attributes sees at this moment. -/
def OKRef.deref (h : Heap) (n : ℕ) (o : OKRef) : OK n where
  variogramModel := o.variogramModel
  model := o.model
  exactValues := o.exactValues
  coordinatesType := o.coordinatesType
  pseudoInv := o.pseudoInv
  pseudoInvType := o.pseudoInvType
  variogramFunction := o.variogramFunction
  functionName := o.functionName
  X_ORIG := o.X_ORIG.vec h n
  Y_ORIG := o.Y_ORIG.vec h n
  Z := o.Z.vec h n
  XCENTER := o.XCENTER
  YCENTER := o.YCENTER
  anisotropyScaling := o.anisotropyScaling
  anisotropyAngle := o.anisotropyAngle
  X_ADJUSTED := o.X_ADJUSTED.vec h n
  Y_ADJUSTED := o.Y_ADJUSTED.vec h n
  lags := o.lags
  params := o.params.list h
  paramsInt := o.paramsInt
  stats := o.stats

/-- `variogram_parameters` as passed: a list is passed by reference. -/
inductive ParamRef
  | none
  | dict (lookup : String → Option ℝ)
  | list (a : Arr)
  | other

/-- The parameters as they are now. -/
def ParamRef.deref (h : Heap) : ParamRef → ParamArg
  | .none => .none
  | .dict d => .dict d
  | .list a => .list (a.list h)
  | .other => .other

/-- `_make_variogram_parameter_list`; core.py:196-376.  For 'linear', 'power' and 'custom' the list that was
passed is returned itself, in all other cases a new one. -/
def makeVariogramParameterListRef (model : String) (p : ParamRef) : H (Option Arr) :=
  match p with
  | .none => pure Option.none
  | .dict d => do
    match ← H.lift (makeVariogramParameterList model (.dict d)) with
    | some l => return some (← H.newList l)
    | Option.none => return Option.none
  | .list a =>
    if model ∈ ["linear"] then
      if a.cols ≠ 2 then H.raise .valueError else pure (some a)
    else if model ∈ ["power"] then
      if a.cols ≠ 3 then H.raise .valueError else pure (some a)
    else if model ∈ ["gaussian", "spherical", "exponential", "hole-effect"] then
      if a.cols ≠ 3 then H.raise .valueError
      else do
        let h ← H.here
        return some (← H.newList [a.get h 0 0 - a.get h 0 2, a.get h 0 1, a.get h 0 2])
    else if model ∈ ["custom"] then pure (some a)
    else H.raise .valueError
  | .other => H.raise .typeError

/-- GSTools part of the constructor and of `update_variogram_model`; ok.py:223-242, 429-447. -/
def OKRef.resolveModel (env : Env) (coordinatesType : String) (vm : ModelArg) (f : FunArg) (p : ParamRef)
    (scaling angle : ℝ) : H (String × Option GsModel × FunArg × ParamRef × ℝ × ℝ) :=
  match vm with
  | .name s => pure (s, Option.none, f, p, scaling, angle)
  | .gstools m => do
    H.lift (validateGstools env.gstoolsVersion m)
    if m.fieldDim = 3 then H.raise .valueError
    if m.latlon = true ∧ coordinatesType = "euclidean" then H.raise .valueError
    let l ← H.newList []
    return ("custom", some m, .callable (fun _ => .ok m.vario) "pykrige_vario", .list l, m.anis, m.angle)

/-- Coordinate adjustment in the constructor; ok.py:280-315.  Returns centre, scaling, angle, `X_ADJUSTED`,
`Y_ADJUSTED`. -/
def OKRef.setupCoordinates (n : ℕ) (X Y : Arr) (coordinatesType : String) (scaling angle : ℝ) :
    H (ℝ × ℝ × ℝ × ℝ × Arr × Arr) :=
  if coordinatesType = "euclidean" then do
    let h ← H.here
    let xc ← H.lift (midrange (X.vec h n))
    let yc ← H.lift (midrange (Y.vec h n))
    let S ← vstack X Y
    let A ← adjustForAnisotropy2 S.T xc yc scaling angle
    return (xc, yc, scaling, angle, A.T.row 0, A.T.row 1)
  else if coordinatesType = "geographic" then
    pure (0, 0, 1, 0, X, Y)
  else H.raise .valueError

/-- The rows of `np.vstack((X, Y)).T` -/
def pointsOf (h : Heap) (n : ℕ) (X Y : Arr) : Fin n → Fin 2 → ℝ := fun i => ![X.vec h n i, Y.vec h n i]

/-- `_initialize_variogram_model`; core.py:379-534: returns the parameter list it was given, or, when there was
none, the new one made by the fit.  Everything it assigns into (`lags`, `semivariance`, `bins`) it has created. -/
def initializeVariogramModelRef {n m : ℕ} (env : Env) (X : Fin n → Fin m → ℝ) (y : Fin n → ℝ) (model : String)
    (vp : Option Arr) (f : VFun) (nlags : ℕ) (weight : Bool) (coordinatesType : String) :
    H (List (ℝ × ℝ) × Arr) := do
  let h ← H.here
  let r ← H.lift (initializeVariogramModel env X y model (vp.map (Arr.list h)) f nlags weight coordinatesType)
  match vp with
  | some a => return (r.1, a)
  | Option.none => return (r.1, ← H.newList r.2)

/-- Arguments of the constructor apart from the data; ok.py:187-206.  `toArgs.params` is not used. -/
structure OKRefArgs extends OKArgs where
  paramRef : ParamRef := .none

/-- The arguments as values. -/
def OKRefArgs.deref (h : Heap) (a : OKRefArgs) : OKArgs := { a.toOKArgs with params := a.paramRef.deref h }

/-- `OrdinaryKriging.__init__`; ok.py:187-377, for `x`, `y`, `z` of length `n` -/
def OKRef.create (n : ℕ) (env : Env) (x y z : Arr) (args : OKRefArgs) : H OKRef := do
  if args.pseudoInvType ∉ ["pinv", "pinvh"] then H.raise .valueError
  let exact ← match args.exactValues with
    | .bool b => pure b
    | .notBool => H.raise .valueError
  let (name, model, fArg, pArg, scaling, angle) ← OKRef.resolveModel env args.coordinatesType
    args.variogramModel args.variogramFunction args.paramRef args.anisotropyScaling args.anisotropyAngle
  let (f, fname) ← H.lift (chooseFunction name fArg)
  let X_ORIG ← x.copyFloat
  let Y_ORIG ← y.copyFloat
  let Z ← z.copyFloat
  let (xc, yc, scaling, angle, XA, YA) ←
    OKRef.setupCoordinates n X_ORIG Y_ORIG args.coordinatesType scaling angle
  let vp ← makeVariogramParameterListRef name pArg
  let h ← H.here
  let (lags, ps) ← initializeVariogramModelRef env (pointsOf h n XA YA) (Z.vec h n) name vp f args.nlags
    args.weight args.coordinatesType
  let h ← H.here
  let stats ← if args.enableStatistics then
      some <$> H.lift (findStatistics (pointsOf h n XA YA) (Z.vec h n) f (ps.list h) args.coordinatesType
        args.pseudoInv)
    else pure Option.none
  return { variogramModel := .name name
           model := model
           exactValues := exact
           coordinatesType := args.coordinatesType
           pseudoInv := args.pseudoInv
           pseudoInvType := args.pseudoInvType
           variogramFunction := f
           functionName := fname
           X_ORIG := X_ORIG
           Y_ORIG := Y_ORIG
           Z := Z
           XCENTER := xc
           YCENTER := yc
           anisotropyScaling := scaling
           anisotropyAngle := angle
           X_ADJUSTED := XA
           Y_ADJUSTED := YA
           lags := lags
           params := ps
           paramsInt := intParams (pArg.deref h) (ps.list h) args.paramsAllInt
           stats := stats }

/-- Arguments of `update_variogram_model`; ok.py:379-388.  `toUpdate.params` is not used. -/
structure OKRefUpdate extends OKUpdate where
  paramRef : ParamRef := .none

/-- The arguments as values. -/
def OKRefUpdate.deref (h : Heap) (u : OKRefUpdate) : OKUpdate :=
  { u.toOKUpdate with params := u.paramRef.deref h }

open Classical in
/-- Re-adjusting the data in `update_variogram_model`; ok.py:463-488. -/
def OKRef.reAniso (o : OKRef) (scaling angle : ℝ) : H OKRef :=
  if scaling ≠ o.anisotropyScaling ∨ angle ≠ o.anisotropyAngle then
    if o.coordinatesType = "euclidean" then do
      let S ← vstack o.X_ORIG o.Y_ORIG
      let A ← adjustForAnisotropy2 S.T o.XCENTER o.YCENTER scaling angle
      return { o with anisotropyScaling := scaling, anisotropyAngle := angle
                      X_ADJUSTED := A.T.row 0, Y_ADJUSTED := A.T.row 1 }
    else if o.coordinatesType = "geographic" then
      pure { o with anisotropyScaling := 1, anisotropyAngle := 0
                    X_ADJUSTED := o.X_ORIG, Y_ADJUSTED := o.Y_ORIG }
    else pure o
  else pure o

/-- `update_variogram_model`; ok.py:379-553.  Returns what it raises, if anything, and the object afterwards
(attributes assigned before an exception stay assigned). -/
def OKRef.update (n : ℕ) (env : Env) (o : OKRef) (u : OKRefUpdate) (h : Heap) : (Py Unit × OKRef) × Heap :=
  let o := { o with variogramModel := u.variogramModel, model := Option.none }
  match OKRef.resolveModel env o.coordinatesType u.variogramModel u.variogramFunction u.paramRef
      u.anisotropyScaling u.anisotropyAngle h with
  | (.error e, h) =>
    ((.error e, match u.variogramModel with
      | .gstools m => { o with model := some m }
      | .name _ => o), h)
  | (.ok (name, model, fArg, pArg, scaling, angle), h) =>
  let o := { o with variogramModel := .name name, model := model }
  match chooseFunction name fArg with
  | .error e => ((.error e, o), h)
  | .ok (f, fname) =>
  let o := { o with variogramFunction := f, functionName := fname }
  match o.reAniso scaling angle h with
  | (.error e, h) => ((.error e, o), h)
  | (.ok o, h) =>
  match makeVariogramParameterListRef name pArg h with
  | (.error e, h) => ((.error e, o), h)
  | (.ok vp, h) =>
  match initializeVariogramModelRef env (pointsOf h n o.X_ADJUSTED o.Y_ADJUSTED) (o.Z.vec h n) name vp f u.nlags
      u.weight o.coordinatesType h with
  | (.error e, h) => ((.error e, o), h)
  | (.ok (lags, ps), h) =>
  let o := { o with lags := lags, params := ps
                    paramsInt := intParams (pArg.deref h) (ps.list h) u.paramsAllInt }
  match findStatistics (pointsOf h n o.X_ADJUSTED o.Y_ADJUSTED) (o.Z.vec h n) f (ps.list h) o.coordinatesType
      o.pseudoInv with
  | .error e => ((.error e, o), h)
  | .ok st => ((.ok (), { o with stats := some st }), h)

/-! ### `execute` -/

/-- An array read as a square matrix. -/
def Arr.mat (h : Heap) (a : Arr) (N : ℕ) : Matrix (Fin N) (Fin N) ℝ := fun i j => a.get h i j

/-- `_get_kriging_matrix(n)`; ok.py:626-648 -/
def OKRef.getKrigingMatrix (n : ℕ) (o : OKRef) : H Arr := do
  let h ← H.here
  let s := o.deref h n
  let a ← H.new (n + 1) (n + 1) fun _ _ => 0
  let γ ← H.lift (s.variogramFunction s.params)
  -- a[:n, :n] = -variogram_function(..., d)
  a.assign (fun r c => r < n ∧ c < n) fun r c =>
    if hr : r < n then if hc : c < n then -γ (s.dataDist ⟨r, hr⟩ ⟨c, hc⟩) else 0 else 0
  a.assign (fun r c => r = c) fun _ _ => 0
  a.assign (fun r _ => r = n) fun _ _ => 1
  a.assign (fun _ c => c = n) fun _ _ => 1
  a.assign (fun r c => r = n ∧ c = n) fun _ _ => 0
  return a

/-- Element `c` of row `r` of the distances `bd`. -/
def bdAt {n : ℕ} (bd : List (Fin n → ℝ)) (r c : ℕ) : ℝ :=
  match bd[r]? with
  | some row => if hc : c < n then row ⟨c, hc⟩ else 0
  | none => 0

open Classical in
/-- The right-hand sides `b` of all points; ok.py:668-672 (the last axis, of length 1, is left out). -/
def rightHandSides {n : ℕ} (γ : ℝ → ℝ) (exact : Bool) (bd : List (Fin n → ℝ)) : H Arr := do
  let b ← H.new bd.length (n + 1) fun _ _ => 0
  b.assign (fun _ c => c < n) fun r c => -γ (bdAt bd r c)
  if (∃ row ∈ bd, ∃ k, |row k| ≤ eps) ∧ exact = true then
    b.assign (fun r c => c < n ∧ |bdAt bd r c| ≤ eps) fun _ _ => 0
  b.assign (fun _ c => c = n) fun _ _ => 1
  return b

/-- `_exec_vector(a, bd, mask)`; ok.py:650-683 -/
def OKRef.execVector (n : ℕ) (o : OKRef) (a : Arr) (bd : List (Fin n → ℝ)) : H (Arr × Arr) := do
  let h ← H.here
  let s := o.deref h n
  let a_inv ← H.lift (invertPython s.pseudoInv s.pseudoInvType (a.mat h (n + 1)))
  let γ ← H.lift (s.variogramFunction s.params)
  let b ← rightHandSides γ s.exactValues bd
  let h ← H.here
  let x : ℕ → Fin (n + 1) → ℝ := fun r => a_inv *ᵥ fun k => b.get h r k
  let zvalues ← H.newList ((List.range bd.length).map fun r => ∑ k : Fin n, x r k.castSucc * o.Z.vec h n k)
  let sigmasq ← H.newList ((List.range bd.length).map fun r => ∑ k : Fin (n + 1), x r k * -b.get h r k)
  return (zvalues, sigmasq)

open Classical in
/-- The right-hand side `b` of one point; ok.py:707-712 and 745-750 (a column, here laid out as a row). -/
def rightHandSide {k : ℕ} (γ : ℝ → ℝ) (exact : Bool) (bd : Fin k → ℝ) : H Arr := do
  let b ← H.new 1 (k + 1) fun _ _ => 0
  b.assign (fun _ c => c < k) fun _ c => if hc : c < k then -γ (bd ⟨c, hc⟩) else 0
  if (∃ i, |bd i| ≤ eps) ∧ exact = true then
    b.assign (fun _ c => ∃ hc : c < k, |bd ⟨c, hc⟩| ≤ eps) fun _ _ => 0
  b.assign (fun _ c => c = k) fun _ _ => 1
  return b

/-- Body of the loop of `_exec_loop` at an unmasked point; ok.py:698-718 -/
def OKRef.loopBody (n : ℕ) (o : OKRef) (a_inv : Matrix (Fin (n + 1)) (Fin (n + 1)) ℝ) (bd : Fin n → ℝ) :
    H (ℝ × ℝ) := do
  let h ← H.here
  let s := o.deref h n
  let γ ← H.lift (s.variogramFunction s.params)
  let b ← rightHandSide γ s.exactValues bd
  let h ← H.here
  let x := a_inv *ᵥ b.vec h (n + 1)
  return (∑ k : Fin n, x k.castSucc * o.Z.vec h n k, ∑ k, x k * -b.vec h (n + 1) k)

/-- Body of the loop of `_exec_loop_moving_window` at an unmasked point; ok.py:732-756 -/
def OKRef.windowBody (n : ℕ) (o : OKRef) (aAll : Arr) (w : Window n) : H (ℝ × ℝ) := do
  let k := w.sel.length
  let h ← H.here
  let s := o.deref h n
  let a : Matrix (Fin (k + 1)) (Fin (k + 1)) ℝ := (aAll.mat h (n + 1)).submatrix w.selector w.selector
  let γ ← H.lift (s.variogramFunction s.params)
  let b ← rightHandSide γ s.exactValues w.bd
  let h ← H.here
  let x ← H.lift (scipySolve a (b.vec h (k + 1)))
  return (∑ i : Fin k, x i.castSucc * o.Z.vec h n (w.sel.get i), -∑ i, x i * b.vec h (k + 1) i)

/-- One iteration: compute and assign `zvalues[j]`, `sigmasq[j]`. -/
def storeResult (v : H (ℝ × ℝ)) (zvalues sigmasq : Arr) (j : ℕ) : H Unit := do
  let v ← v
  zvalues.assign (fun _ c => c = j) fun _ _ => v.1
  sigmasq.assign (fun _ c => c = j) fun _ _ => v.2

/-- The loops of the Python backends, over the unmasked points `j` in order; ok.py:698-718, 732-756. -/
def fillResults {B : Type} (body : B → H (ℝ × ℝ)) (zvalues sigmasq : Arr) : ℕ → List (B × Bool) → H Unit
  | _, [] => pure ()
  | j, (x, masked) :: l =>
    (if masked then pure () else storeResult (body x) zvalues sigmasq j) >>= fun _ =>
      fillResults body zvalues sigmasq (j + 1) l

/-- `np.zeros(npt)` twice, then the loop. -/
def runLoop {B : Type} (body : B → H (ℝ × ℝ)) (l : List (B × Bool)) : H (Arr × Arr) := do
  let zvalues ← H.new 1 l.length fun _ _ => 0
  let sigmasq ← H.new 1 l.length fun _ _ => 0
  fillResults body zvalues sigmasq 0 l
  return (zvalues, sigmasq)

/-- Result arrays made by a function on values. -/
def newResults (p : Py (List (ℝ × ℝ))) : H (Arr × Arr) := do
  let l ← H.lift p
  return (← H.newList (l.map Prod.fst), ← H.newList (l.map Prod.snd))

/-- `_exec_loop(a, bd_all, mask)`; ok.py:685-720 -/
def OKRef.execLoop (n : ℕ) (o : OKRef) (a : Arr) (bdAll : List (Fin n → ℝ)) (mask : List Bool) :
    H (Arr × Arr) := do
  let h ← H.here
  let a_inv ← H.lift (invertPython o.pseudoInv o.pseudoInvType (a.mat h (n + 1)))
  runLoop (o.loopBody n a_inv) (bdAll.zip mask)

/-- The branch without moving window; ok.py:977-1010.  `_c_exec_loop` (lib/cok.pyx:14-96) assigns only into
arrays it has created (`zvalues`, `sigmasq`, `b`, `x`): it is modelled on values. -/
def OKRef.globalKrige (n : ℕ) (o : OKRef) (a : Arr) (qs : List (Fin 2 → ℝ)) (mask : List Bool)
    (backend : String) : H (Arr × Arr) := do
  let h ← H.here
  let s := o.deref h n
  let bd : List (Fin n → ℝ) := qs.map fun q => s.queryDist q
  if backend = "vectorized" then o.execVector n a bd
  else if backend = "loop" then o.execLoop n a bd mask
  else if backend = "C" then newResults (s.cExecLoop (a.mat h (n + 1)) bd mask)
  else H.raise .valueError

/-- The moving-window branch; ok.py:922-976.  The compiled loop (lib/cok.pyx:98-193) and windows larger than the
data set are modelled on values. -/
def OKRef.movingWindow (n : ℕ) (env : Env) (o : OKRef) (a : Arr) (qs : List (Fin 2 → ℝ)) (mask : List Bool)
    (backend : String) (k : ℕ) : H (Arr × Arr) := do
  let h ← H.here
  let s := o.deref h n
  if k ≤ n ∧ backend = "loop" then
    runLoop (o.windowBody n a) ((qs.map (s.neighbours env k)).zip mask)
  else newResults (s.movingWindow env (a.mat h (n + 1)) qs mask backend k)

/-- Arguments of `execute`; ok.py:760-768: arrays by reference. -/
structure ExecRefs where
  style : String
  xpoints : Arr
  ypoints : Arr
  mask : Option Arr := none
  backend : String := "vectorized"
  nClosest : Option ℤ := none

open Classical in
/-- A boolean array as a mask. -/
def Arr.mask2 (h : Heap) (a : Arr) : Mask2 :=
  { rows := a.rows, cols := a.cols, get := fun r c => decide (a.get h r c ≠ 0) }

open Classical in
/-- The elements of a one-dimensional boolean array. -/
def Arr.bools (h : Heap) (a : Arr) : List Bool := (a.list h).map fun v => decide (v ≠ 0)

/-- The arguments as values, at this moment. -/
def ExecRefs.deref (h : Heap) (a : ExecRefs) : ExecArgs where
  style := a.style
  xpoints := { vals := a.xpoints.list h, isInt := a.xpoints.isInt }
  ypoints := { vals := a.ypoints.list h, isInt := a.ypoints.isInt }
  mask := a.mask.map (Arr.mask2 h)
  backend := a.backend
  nClosest := a.nClosest

/-- A new boolean array. -/
def H.newBools (l : List Bool) : H Arr := H.newList (l.map fun b => if b then 1 else 0)

/-- `mask.flatten()`: a new array, row by row. -/
def Arr.flatten (a : Arr) : H Arr := do
  let h ← H.here
  H.newList ((List.range a.rows).flatMap fun r => (List.range a.cols).map fun c => a.get h r c)

/-- `np.meshgrid(xpts, ypts)` and `flatten()`: new arrays; ok.py:865-867 -/
def meshgridRef (xpts ypts : Arr) : H (Arr × Arr) := do
  let h ← H.here
  let g := meshgridFlat (xpts.list h) (ypts.list h)
  let gx ← H.newList (g.map Prod.fst) xpts.isInt
  let gy ← H.newList (g.map Prod.snd) ypts.isInt
  return (gx, gy)

/-- Query points and mask; ok.py:848-876, 893-894.  `xpts`, `ypts` are the copies made in ok.py:842-843. -/
def queryPointsRef (args : ExecRefs) (xpts ypts : Arr) : H (Arr × Arr × Arr) := do
  let nx := xpts.cols
  let ny := ypts.cols
  if args.style ∈ ["grid", "masked"] then
    if args.style = "masked" then
      match args.mask with
      | none => H.raise .ioError
      | some m =>
        if m.rows ≠ ny ∨ m.cols ≠ nx then
          if m.rows = nx ∧ m.cols = ny then
            let mask ← m.T.flatten
            let g ← meshgridRef xpts ypts
            return (g.1, g.2, mask)
          else H.raise .valueError
        else
          let mask ← m.flatten
          let g ← meshgridRef xpts ypts
          return (g.1, g.2, mask)
    else
      let g ← meshgridRef xpts ypts
      let mask ← H.newBools (List.replicate (ny * nx) false)
      return (g.1, g.2, mask)
  else if args.style = "points" then
    if nx ≠ ny then H.raise .valueError
    else
      let mask ← H.newBools (List.replicate nx false)
      return (xpts, ypts, mask)
  else H.raise .valueError

/-- Query coordinates in the frame used for distances; ok.py:878-891 -/
def OKRef.adjustQuery (o : OKRef) (xpts ypts : Arr) : H (Arr × Arr) :=
  if o.coordinatesType = "euclidean" then do
    let S ← vstack xpts ypts
    let A ← adjustForAnisotropy2 S.T o.XCENTER o.YCENTER o.anisotropyScaling o.anisotropyAngle
    return (A.T.row 0, A.T.row 1)
  else pure (xpts, ypts)

/-- What `execute` returns: two arrays, of the given shape, with their mask if they are masked arrays. -/
structure ResultRef where
  shape : List ℕ
  z : Arr
  ss : Arr
  mask : Option Arr

/-- The returned arrays, as read at this moment. -/
def ResultRef.deref (h : Heap) (r : ResultRef) : ExecResult where
  shape := r.shape
  z := match r.mask with
    | some m => List.zipWith (fun v m => if m then none else some v) (r.z.list h) (m.bools h)
    | none => (r.z.list h).map some
  ss := match r.mask with
    | some m => List.zipWith (fun v m => if m then none else some v) (r.ss.list h) (m.bools h)
    | none => (r.ss.list h).map some

/-- `execute(...)`; ok.py:760-1020 -/
def OKRef.execute (n : ℕ) (env : Env) (o : OKRef) (args : ExecRefs) : H ResultRef := do
  if args.style ∉ ["grid", "masked", "points"] then H.raise .valueError
  if let some k := args.nClosest then
    if k ≤ 1 then H.raise .valueError
  let xpts ← args.xpoints.copy
  let ypts ← args.ypoints.copy
  let a ← o.getKrigingMatrix n
  let (gx, gy, mask) ← queryPointsRef args xpts ypts
  let (qx, qy) ← o.adjustQuery gx gy
  let h ← H.here
  let qs : List (Fin 2 → ℝ) := List.zipWith (fun x y => ![x, y]) (qx.list h) (qy.list h)
  let backend := if args.backend = "C" ∧ ¬ env.cAvailable then "loop" else args.backend
  let r ← match args.nClosest with
    | some k => o.movingWindow n env a qs (mask.bools h) backend k.toNat
    | none => o.globalKrige n a qs (mask.bools h) backend
  return { shape := if args.style ∈ ["masked", "grid"] then [ypts.cols, xpts.cols] else [xpts.cols]
           z := r.1, ss := r.2
           mask := if args.style = "masked" then some mask else none }

end
end PyKrige
