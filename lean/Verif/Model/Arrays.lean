import Verif.Model.UK3D

/-!
# Arrays of any length

The constructors as called with one-dimensional arrays whose lengths need not agree.  (An array of shape `(1, .., k, .., 1)`
is a one-dimensional array after `np.atleast_1d(np.squeeze(..))`, ok.py:260-266; arrays with several extended dimensions
are not modelled.)
-/

set_option linter.unusedSectionVars false

namespace PyKrige
noncomputable section

/-- A one-dimensional array: its length and its entries. -/
abbrev NdArray := Σ n : ℕ, Fin n → ℝ

/-- `a[mask]` with a boolean array: `IndexError` unless the lengths agree. -/
def boolIndex (a : List ℝ) (mask : List Bool) : Py (List ℝ) :=
  if a.length = mask.length then .ok ((a.zip mask).filterMap fun e => if e.2 then some e.1 else none) else .error .indexError

/-- Pair distances `d` and half squared differences `g`; core.py:431-453.  In the geographic branch the values give a
square matrix to which the mask with the shape of the distance matrix is applied (`IndexError` if they differ). -/
def pairDistancesArr {n m : ℕ} (X : Fin n → Fin m → ℝ) (y : NdArray) (coordinatesType : String) : Py (List ℝ × List ℝ) :=
  if coordinatesType = "euclidean" then
    .ok ((pdistPairs n).map fun p => euclid (X p.1) (X p.2), (pdistPairs y.1).map fun p => (1 / 2) * (y.2 p.1 - y.2 p.2) ^ 2)
  else if coordinatesType = "geographic" then
    if h : m = 2 then
      let lon := fun i => X i ⟨0, by omega⟩
      let lat := fun i => X i ⟨1, by omega⟩
      if y.1 = n then
        .ok ((lowerPairs n).map fun p => greatCircleDistance (lon p.2) (lat p.2) (lon p.1) (lat p.1),
          (lowerPairs y.1).map fun p => (1 / 2) * (y.2 p.2 - y.2 p.1) ^ 2)
      else .error .indexError
    else .error .valueError
  else .error .valueError

open Classical in
/-- The experimental variogram part of `_initialize_variogram_model`; core.py:431-501.  An empty bin is `none`. -/
def experimentalVariogramArr {n m : ℕ} (X : Fin n → Fin m → ℝ) (y : NdArray) (nlags : ℕ) (coordinatesType : String) :
    Py (List (ℝ × ℝ)) := do
  let (d, g) ← pairDistancesArr X y coordinatesType
  let dmax ← amax d
  let dmin ← amin d
  let bins := binEdges dmin dmax nlags
  let rows ← (bins.zip bins.tail).mapM fun e => do
    let mask := d.map fun v => decide (e.1 ≤ v ∧ v < e.2)
    let db ← boolIndex d mask
    if 0 < db.length then
      let gb ← boolIndex g mask
      return some (mean db, mean gb)
    else return none
  return rows.filterMap id

/-- The coordinate arrays are combined: `np.vstack((X, Y))` of the anisotropy correction, ok.py:277-300.  In the geographic
branch nothing happens yet; the arrays meet in `np.vstack` of the variogram, ok.py:320. -/
def OK.checkStack (x y : NdArray) (coordinatesType : String) : Py Unit :=
  if coordinatesType = "euclidean" then do
    let _ ← midrange x.2
    let _ ← midrange y.2
    if y.1 = x.1 then return () else throw .valueError
  else if coordinatesType = "geographic" then .ok ()
  else .error .valueError

/-- `OrdinaryKriging.__init__`, called with arrays `x`, `y`, `z` of any lengths; ok.py:187-330.  `none` stands for an
object with arrays of different lengths (outside the model of the class).  For arrays of one length the model of the class takes over: it
repeats the steps before, all of which depend on nothing but the arguments. -/
def OK.createArr (env : Env) (x y z : NdArray) (args : OKArgs) : Py (Option (Σ n, OK n)) := do
  if args.pseudoInvType ∉ ["pinv", "pinvh"] then throw .valueError
  let _ ← match args.exactValues with
    | .bool b => pure b
    | .notBool => throw .valueError
  let (name, _, fArg, pArg, scaling, angle) ← OK.resolveModel env args.coordinatesType
    args.variogramModel args.variogramFunction args.params args.anisotropyScaling
    args.anisotropyAngle
  let _ ← chooseFunction name fArg
  OK.checkStack x y args.coordinatesType
  let _ ← makeVariogramParameterList name pArg
  if h : y.1 = x.1 then
    let (_, _, _, _, adj) ← OK.setupCoordinates x.2 (fun i => y.2 (i.cast h.symm)) args.coordinatesType scaling angle
    let _ ← experimentalVariogramArr adj z args.nlags args.coordinatesType
    if h' : z.1 = x.1 then
      let s ← OK.create env x.2 (fun i => y.2 (i.cast h.symm)) (fun i => z.2 (i.cast h'.symm)) args
      return some ⟨x.1, s⟩
    else return none
  else throw .valueError

/-- `OrdinaryKriging3D.__init__`, called with arrays `x`, `y`, `z`, `val` of any lengths; ok3d.py:198-323.  `none` stands for an
object with arrays of different lengths (outside the model of the class).  For arrays of one length the model of the class takes over: it
repeats the steps before, all of which depend on nothing but the arguments. -/
def OK3D.createArr (env : Env) (x y z val : NdArray) (args : OK3DArgs) : Py (Option (Σ n, OK3D n)) := do
  if args.pseudoInvType ∉ ["pinv", "pinvh"] then throw .valueError
  let _ ← match args.exactValues with
    | .bool b => pure b
    | .notBool => throw .valueError
  let (name, _, fArg, pArg, an) ← OK3D.resolveModel env args.variogramModel
    args.variogramFunction args.params args.aniso
  let _ ← chooseFunction name fArg
  let xc ← midrange x.2
  let yc ← midrange y.2
  let zc ← midrange z.2
  -- `np.vstack((X, Y, Z))`
  if h : y.1 = x.1 ∧ z.1 = x.1 then
    let _ ← makeVariogramParameterList name pArg
    let _ ← experimentalVariogramArr (fun i => adjustPoint3 xc yc zc an (x.2 i) (y.2 (i.cast h.1.symm)) (z.2 (i.cast h.2.symm))) val args.nlags "euclidean"
    if h' : val.1 = x.1 then
      let s ← OK3D.create env x.2 (fun i => y.2 (i.cast h.1.symm)) (fun i => z.2 (i.cast h.2.symm)) (fun i => val.2 (i.cast h'.symm)) args
      return some ⟨x.1, s⟩
    else return none
  else throw .valueError

/-- `UniversalKriging.__init__`, called with arrays `x`, `y`, `z` of any lengths; uk.py:220-350.  `none` stands for an
object with arrays of different lengths (outside the model of the class).  For arrays of one length the model of the class takes over: it
repeats the steps before, all of which depend on nothing but the arguments. -/
def UK.createArr (env : Env) (x y z : NdArray) (args : UKArgs) : Py (Option (Σ n, UK n)) := do
  if args.pseudoInvType ∉ ["pinv", "pinvh"] then throw .valueError
  let _ ← match args.exactValues with
    | .bool b => pure b
    | .notBool => throw .valueError
  let (name, _, fArg, pArg, scaling, angle) ← UK.resolveModel env
    args.variogramModel args.variogramFunction args.params args.anisotropyScaling
    args.anisotropyAngle
  let _ ← chooseFunction name fArg
  let xc ← midrange x.2
  let yc ← midrange y.2
  -- `np.vstack((X, Y))`
  if h : y.1 = x.1 then
    let _ ← makeVariogramParameterList name pArg
    let _ ← experimentalVariogramArr (adjustData2 x.2 (fun i => y.2 (i.cast h.symm)) xc yc scaling angle) z args.nlags "euclidean"
    if h' : z.1 = x.1 then
      let s ← UK.create env x.2 (fun i => y.2 (i.cast h.symm)) (fun i => z.2 (i.cast h'.symm)) args
      return some ⟨x.1, s⟩
    else return none
  else throw .valueError

/-- `UniversalKriging3D.__init__`, called with arrays `x`, `y`, `z`, `val` of any lengths; uk3d.py:215-351.  `none` stands for an
object with arrays of different lengths (outside the model of the class).  For arrays of one length the model of the class takes over: it
repeats the steps before, all of which depend on nothing but the arguments. -/
def UK3D.createArr (env : Env) (x y z val : NdArray) (args : UK3DArgs) : Py (Option (Σ n, UK3D n)) := do
  if args.pseudoInvType ∉ ["pinv", "pinvh"] then throw .valueError
  let _ ← match args.exactValues with
    | .bool b => pure b
    | .notBool => throw .valueError
  let (name, _, fArg, pArg, an) ← OK3D.resolveModel env args.variogramModel
    args.variogramFunction args.params args.aniso
  let _ ← chooseFunction name fArg
  let xc ← midrange x.2
  let yc ← midrange y.2
  let zc ← midrange z.2
  -- `np.vstack((X, Y, Z))`
  if h : y.1 = x.1 ∧ z.1 = x.1 then
    let _ ← makeVariogramParameterList name pArg
    let _ ← experimentalVariogramArr (fun i => adjustPoint3 xc yc zc an (x.2 i) (y.2 (i.cast h.1.symm)) (z.2 (i.cast h.2.symm))) val args.nlags "euclidean"
    if h' : val.1 = x.1 then
      let s ← UK3D.create env x.2 (fun i => y.2 (i.cast h.1.symm)) (fun i => z.2 (i.cast h.2.symm)) (fun i => val.2 (i.cast h'.symm)) args
      return some ⟨x.1, s⟩
    else return none
  else throw .valueError

end
end PyKrige
