import Verif.Model.Compat
import Verif.Model.Ilr

/-! Classification kriging (ck.py). -/

namespace PyKrige
noncomputable section

/-- A two-dimensional array. -/
structure Mat where
  rows : ℕ
  cols : ℕ
  val : ℕ → ℕ → ℝ

/-- A scikit-learn classifier. `P` is the type of a row of predictor variables, `L` that of a label. `fit` returns what it
raises, if anything, and the state afterwards; `classes` are its `classes_`; `predictProba` gives, for every row of
predictors, one number for every class. Simplifications: predicting does not change the state; there is at least one class.
`isClassifier`: it is an instance of `BaseEstimator` and `ClassifierMixin`. -/
structure Classifier (P L : Type) where
  State : Type
  isClassifier : Bool := true
  fit : {n : ℕ} → State → (Fin n → P) → (Fin n → L) → Py Unit × State
  classes : State → List L
  predictProba : {m : ℕ} → State → (Fin m → P) → Py (Fin m → ℕ → ℝ)

/-- A `ClassificationKriging` object; `none`: the attribute has not been assigned. -/
structure CK {P L : Type} (C : Classifier P L) where
  state : C.State
  args : KrigeArgs
  classes : Option (List L)
  krige : Option (List Krige)

/-- `ilr_transformation` (ck.py:243-266) of an array with `c + 1` columns. -/
def ilrMat (rows c : ℕ) (val : ℕ → ℕ → ℝ) : Mat :=
  { rows := rows, cols := c
    val := fun i r => if h : r < c then ilrTransformation (fun (_ : Fin 1) (j : Fin (c + 1)) => val i j) 0 ⟨r, h⟩ else 0 }

/-- The length of one axis of `a + b`. -/
def broadcastDim (a b : ℕ) : Py ℕ :=
  if a = b then .ok a else if a = 1 then .ok b else if b = 1 then .ok a else .error .valueError

/-- `a + b` for arrays of two dimensions: numpy broadcasts axes of length one. -/
def Mat.add (a b : Mat) : Py Mat := do
  let rows ← broadcastDim a.rows b.rows
  let cols ← broadcastDim a.cols b.cols
  let at_ (n i : ℕ) := if n = 1 then 0 else i
  return { rows := rows, cols := cols
           val := fun i j => a.val (at_ a.rows i) (at_ a.cols j) + b.val (at_ b.rows i) (at_ b.cols j) }

/-- `np.argmax` of a nonempty row: the first position of its largest entry. -/
def argmax {c : ℕ} (f : Fin (c + 1) → ℝ) : Fin (c + 1) :=
  (Finset.univ.filter fun j => ∀ l, f l ≤ f j).min' (by
    obtain ⟨j, -, h⟩ := Finset.exists_max_image Finset.univ f ⟨0, Finset.mem_univ _⟩
    exact ⟨j, Finset.mem_filter.2 ⟨Finset.mem_univ _, fun l => h l (Finset.mem_univ l)⟩⟩)

section
variable {P L : Type} [DecidableEq L] {C : Classifier P L}

/-- ck.py:57-105, the constructor, with `check_sklearn_model` (compat.py:294-308). The settings of `Krige` are only
stored. -/
def CK.init (st : C.State) (args : KrigeArgs) : Py (CK C) :=
  if C.isClassifier then .ok { state := st, args := args, classes := none, krige := none }
  else .error .runtimeError

/-- ck.py:126-128: one `Krige` object per class but one; what it raises, if anything, and the list afterwards. -/
def makeKriges (args : KrigeArgs) : ℕ → Py Unit × List Krige
  | 0 => (.ok (), [])
  | c + 1 =>
    match Krige.init args with
    | .error e => (.error e, [])
    | .ok k => let r := makeKriges args c; (r.1, k :: r.2)

/-- `OneHotEncoder(categories=[classes]).fit_transform(y)`, ck.py:133-134: it takes arrays of two dimensions only, and
refuses labels that are not among the classes. -/
def oneHot {n : ℕ} (classes : List L) (y : Fin n → L) (twoDim : Bool) : Py (ℕ → ℕ → ℝ) :=
  if twoDim = false then .error .valueError
  else if ∃ i, y i ∉ classes then .error .valueError
  else .ok fun i j => if h : i < n then if classes[j]? = some (y ⟨i, h⟩) then 1 else 0 else 0

/-- ck.py:137-138: fitting the `Krige` objects in turn; `res i r` is coordinate `r` of the residual at point `i`. -/
def fitKriges {n d : ℕ} (env : Env) (x : Fin n → Fin d → ℝ) (res : Fin n → ℕ → ℝ) : ℕ → List Krige → Py Unit × List Krige
  | _, [] => (.ok (), [])
  | r, k :: ks =>
    match k.fit env x fun i => res i r with
    | (.error e, k') => (.error e, k' :: ks)
    | (.ok (), k') => let t := fitKriges env x res (r + 1) ks; (t.1, k' :: t.2)

/-- ck.py:107-141, `fit`: what it raises, if anything, and the object afterwards. `twoDim`: `y` has shape `(n, 1)`, not
`(n,)`. Simplification: as many rows of predictors and points as targets. -/
def CK.fit {n d : ℕ} (env : Env) (k : CK C) (p : Fin n → P) (x : Fin n → Fin d → ℝ) (y : Fin n → L) (twoDim : Bool) :
    Py Unit × CK C :=
  match C.fit k.state p y with
  | (.error e, st) => (.error e, { k with state := st })
  | (.ok (), st) =>
    let classes := C.classes st
    let c := classes.length - 1
    match makeKriges k.args c with
    | (.error e, ks) => (.error e, { k with state := st, classes := some classes, krige := some ks })
    | (.ok (), ks) =>
      let k := { k with state := st, classes := some classes, krige := some ks }
      match C.predictProba st p with
      | .error e => (.error e, k)
      | .ok proba =>
        let mlIlr := ilrMat n c fun i j => if h : i < n then proba ⟨i, h⟩ j else 0
        match oneHot classes y twoDim with
        | .error e => (.error e, k)
        | .ok ohe =>
          let yIlr := ilrMat n c ohe
          let r := fitKriges env x (fun i j => yIlr.val i j - mlIlr.val i j) 0 ks
          (r.1, { k with krige := some r.2 })

/-- An entry of an array that is not masked. -/
def plainEntry : Option ℝ → Py ℝ
  | some v => .ok v
  | none => .error .valueError

/-- ck.py:172-192, `krige_residual`: one column per `Krige` object. `np.vstack` of an empty list, or of predictions of
different lengths, is a `ValueError`. Simplification: no keywords `style` and `mask`, so that the predictions are plain
arrays of one dimension; for an entry without a value (which they do not have) the model raises. -/
def CK.krigeResidual (env : Env) (k : CK C) (x : Points) (backend : Option String) : Py Mat := do
  match k.classes, k.krige with
  | some classes, some ks =>
    let preds ← (List.range (classes.length - 1)).mapM fun i => do
      let K ← pyGet ks i
      let e ← K.predict env x { backend := backend }
      e.mapM plainEntry
    match preds with
    | [] => .error .valueError
    | e :: es =>
      if ∃ e' ∈ es, e'.length ≠ e.length then .error .valueError
      else .ok { rows := e.length, cols := (e :: es).length, val := fun i j => ((e :: es).getD j []).getD i 0 }
  | _, _ => .error .attributeError

/-- ck.py:143-170, `predict`. -/
def CK.predict {m : ℕ} (env : Env) (k : CK C) (p : Fin m → P) (x : Points) (backend : Option String) : Py (List ℕ) := do
  let proba ← C.predictProba k.state p
  let mlIlr := ilrMat m ((C.classes k.state).length - 1) fun i j => if h : i < m then proba ⟨i, h⟩ j else 0
  let res ← k.krigeResidual env x backend
  let s ← res.add mlIlr
  return (List.range s.rows).map fun i =>
    (argmax (inverseIlr (fun (_ : Fin 1) (r : Fin s.cols) => s.val i r) 0)).val

end
end
end PyKrige
