import Verif.Model.Core

/-!
Pieces shared by the four kriging classes: arguments, GSTools checks, grids and masks.
-/

namespace PyKrige
noncomputable section

/-- The attributes of a GSTools `CovModel` that PyKrige reads.  `isCovModel = false` stands for a
foreign object that merely has an attribute `pykrige_kwargs`. -/
structure GsModel where
  isCovModel : Bool
  fieldDim : ℕ
  latlon : Bool
  vario : ℝ → ℝ
  anis : ℝ
  angle : ℝ
  anisY : ℝ
  anisZ : ℝ
  angleX : ℝ
  angleY : ℝ
  angleZ : ℝ

/-- The argument `variogram_model`: a string, or an object with attribute `pykrige_kwargs`. -/
inductive ModelArg
  | name (s : String)
  | gstools (m : GsModel)

/-- The argument `variogram_function`: absent, not callable, or a callable with its `__name__`. -/
inductive FunArg
  | none
  | notCallable
  | callable (f : VFun) (name : String)

/-- The argument `exact_values`. -/
inductive BoolArg
  | bool (b : Bool)
  | notBool

/-- A Python list comparison `GSTOOLS_VERSION < [a, b]` of two-element lists. -/
def versionLt (v w : ℕ × ℕ) : Bool := v.1 < w.1 || (v.1 == w.1 && v.2 < w.2)

/-- `validate_gstools(model)`; compat_gstools.py:21-36 -/
def validateGstools (version : Option (ℕ × ℕ)) (m : GsModel) : Py Unit :=
  match version with
  | none => .error .gstoolsException
  | some v =>
    if ¬ m.isCovModel then .error .gstoolsException
    else if versionLt v (1, 3) then .error .gstoolsException
    else if m.latlon && versionLt v (1, 4) then .error .gstoolsException
    else .ok ()

/-- The variogram function chosen from the model name and the `variogram_function` argument, with its
`__name__`; ok.py:243-260 (the same statements in ok3d.py, uk.py, uk3d.py and in the update methods). -/
def chooseFunction (name : String) (f : FunArg) : Py (VFun × String) :=
  if (variogramDict name).isNone ∧ name ≠ "custom" then .error .valueError
  else if name = "custom" then
    match f with
    | .callable f nm => .ok (f, nm)
    | _ => .error .valueError
  else
    match variogramDict name with
    | some f => .ok (f, variogramFunctionName name)
    | none => .error .valueError

/-- An array of query coordinates as passed by the caller: values and whether its numpy dtype is an
integer type. -/
structure QArray where
  vals : List ℝ
  isInt : Bool := false

/-- A two-dimensional boolean mask array. -/
structure Mask2 where
  rows : ℕ
  cols : ℕ
  get : ℕ → ℕ → Bool

/-- `mask.T` -/
def Mask2.T (m : Mask2) : Mask2 := { rows := m.cols, cols := m.rows, get := fun r c => m.get c r }

/-- `mask.flatten()` (row-major) -/
def Mask2.flatten (m : Mask2) : List Bool :=
  (List.range m.rows).flatMap fun r => (List.range m.cols).map fun c => m.get r c

/-- `np.meshgrid(xpts, ypts)` followed by `flatten()` of both, as one list of pairs: row-major over
an array of shape `(ny, nx)` with `grid_x[j, i] = xpts[i]`, `grid_y[j, i] = ypts[j]`. -/
def meshgridFlat (xs ys : List ℝ) : List (ℝ × ℝ) :=
  ys.flatMap fun y => xs.map fun x => (x, y)

/-- The arrays returned by `execute`: shape and row-major data; `none` is a masked entry. -/
structure ExecResult where
  shape : List ℕ
  z : List (Option ℝ)
  ss : List (Option ℝ)

/-- `np.ma.array(values, mask=mask)` if `style == "masked"`; ok.py:1012-1014 -/
def applyMask (style : String) (mask : List Bool) (vals : List ℝ) : List (Option ℝ) :=
  if style = "masked" then List.zipWith (fun v m => if m then none else some v) vals mask
  else vals.map some

/-- Kriging matrix inversion shared by the Python backends: `P_INV[type](a)` if `pseudo_inv` else
`scipy.linalg.inv(a)`; ok.py:659-662, 693-696 (and the same lines of the other classes). -/
def invertPython {N : ℕ} (pseudoInv : Bool) (pseudoInvType : String)
    (a : Matrix (Fin N) (Fin N) ℝ) : Py (Matrix (Fin N) (Fin N) ℝ) :=
  if pseudoInv then
    match P_INV pseudoInvType with
    | some f => .ok (f a)
    | none => .error .keyError
  else scipyInv a

/-- Kriging matrix inversion in the C backend; lib/cok.pyx:44-54 (`pinv2` was removed from scipy:
`AttributeError`). -/
def invertC {N : ℕ} (pseudoInv : Bool) (pseudoInvType : String)
    (a : Matrix (Fin N) (Fin N) ℝ) : Py (Matrix (Fin N) (Fin N) ℝ) :=
  if pseudoInv then
    if pseudoInvType = "pinv" then .ok (scipyPinv a)
    else if pseudoInvType = "pinv2" then .error .attributeError
    else if pseudoInvType = "pinvh" then .ok (scipyPinvh a)
    else .error .valueError
  else scipyInv a

/-- One row of a moving window: the selected data indices and the distances to them. -/
structure Window (n : ℕ) where
  sel : List (Fin n)
  bd : Fin sel.length → ℝ

/-- `a_selector = np.concatenate((b_selector, np.array([a_all.shape[0] - 1])))`; ok.py:737 -/
def Window.selector {n : ℕ} (w : Window n) (i : Fin (w.sel.length + 1)) : Fin (n + 1) :=
  if h : i.val < w.sel.length then (w.sel.get ⟨i.val, h⟩).castSucc else Fin.last n

/-- `a_selector` when the window asks for `k` neighbours but there are only those of `w`: the KD-tree reports
index `n` for each missing one, which happens to be the row of the unbiasedness condition; ok.py:734-738. -/
def Window.beyondSelector {n : ℕ} (w : Window n) (k : ℕ) (i : Fin (k + 1)) : Fin (n + 1) :=
  if h : i.val < w.sel.length then (w.sel.get ⟨i.val, h⟩).castSucc else Fin.last n

open Classical in
/-- Body of the Python moving-window loop at an unmasked point, when fewer than `k` data exist; ok.py:731-756,
ok3d.py:707-731: `scipy.linalg.solve` refuses a right-hand side that is not finite (`ValueError`) and a
singular matrix; `self.Z[b_selector]` would be an `IndexError`. -/
def Window.beyondBody {n : ℕ} (env : Env) (w : Window n) (γ : ℝ → ℝ) (exact : Bool)
    (aAll : Matrix (Fin (n + 1)) (Fin (n + 1)) ℝ) (k : ℕ) : Py (ℝ × ℝ) :=
  match env.atInfinity γ with
  | none => .error .valueError
  | some v => do
    let b : Fin (k + 1) → ℝ := fun i =>
      if h : i.val < w.sel.length then
        if exact = true ∧ |w.bd ⟨i.val, h⟩| ≤ eps then 0 else -γ (w.bd ⟨i.val, h⟩)
      else if i.val < k then -v else 1
    let _ ← scipySolve (aAll.submatrix (w.beyondSelector k) (w.beyondSelector k)) b
    .error .indexError

end
end PyKrige
