import Mathlib.Analysis.SpecialFunctions.Complex.Arg
import Mathlib.Analysis.SpecialFunctions.Trigonometric.Inverse
import Mathlib.Analysis.SpecialFunctions.Log.Basic
import Verif.Model.VariogramModels
import Verif.Model.Params
import Verif.Model.LinAlg

/-!
Model of `src/pykrige/core.py` (all of it except `_make_variogram_parameter_list`, which is in
`Params.lean`).  Coordinates arrays `X` of shape `[n, m]` are functions `Fin n → Fin m → ℝ`.
-/

namespace PyKrige
noncomputable section
open Matrix

/-- The cutoff `eps = 1.0e-10`; core.py:30, ok.py:173 and the class attribute of the other classes. -/
def eps : ℝ := 1 / 10 ^ 10

/-- `np.arctan2(y, x)`: the argument of `x + i y`. -/
def arctan2 (y x : ℝ) : ℝ := Complex.arg (Complex.mk x y)

/-- `great_circle_distance(lon1, lat1, lon2, lat2)`, one pair of points; core.py:36-97 -/
def greatCircleDistance (lon1 lat1 lon2 lat2 : ℝ) : ℝ :=
  let lat1 := lat1 * Real.pi / 180
  let lat2 := lat2 * Real.pi / 180
  let dlon := (lon1 - lon2) * Real.pi / 180
  let c1 := Real.cos lat1
  let s1 := Real.sin lat1
  let c2 := Real.cos lat2
  let s2 := Real.sin lat2
  let cd := Real.cos dlon
  180 / Real.pi *
    arctan2 (Real.sqrt ((c2 * Real.sin dlon) ^ 2 + (c1 * s2 - s1 * c2 * cd) ^ 2))
      (s1 * s2 + c1 * c2 * cd)

/-- `euclid3_to_great_circle(d)`, one entry; core.py:100-117 -/
def euclid3ToGreatCircle (d : ℝ) : ℝ :=
  let d := if d > 2 then 2 else d
  180 - 360 / Real.pi * Real.arccos (1 / 2 * d)

/-- scipy's `cdist`/`pdist` with metric "euclidean", one pair of points. -/
def euclid {m : ℕ} (p q : Fin m → ℝ) : ℝ := Real.sqrt (∑ k, (p k - q k) ^ 2)

/-- Row-by-row `_adjust_for_anisotropy` for `X.shape[1] == 2`; core.py:141-158 and 190-193.
`np.dot(stretch, np.dot(rot_tot, X.T)).T + center` acts on each row separately. -/
def adjust2 (center : Fin 2 → ℝ) (scaling angle : ℝ) (p : Fin 2 → ℝ) : Fin 2 → ℝ :=
  let angle := angle * Real.pi / 180
  let x := p - center
  let stretch : Matrix (Fin 2) (Fin 2) ℝ := !![1, 0; 0, scaling]
  let rot : Matrix (Fin 2) (Fin 2) ℝ :=
    !![Real.cos (-angle), -Real.sin (-angle); Real.sin (-angle), Real.cos (-angle)]
  stretch *ᵥ (rot *ᵥ x) + center

/-- Row-by-row `_adjust_for_anisotropy` for `X.shape[1] == 3`; core.py:159-193 -/
def adjust3 (center : Fin 3 → ℝ) (scaling : Fin 2 → ℝ) (angle : Fin 3 → ℝ) (p : Fin 3 → ℝ) :
    Fin 3 → ℝ :=
  let a0 := angle 0 * Real.pi / 180
  let a1 := angle 1 * Real.pi / 180
  let a2 := angle 2 * Real.pi / 180
  let x := p - center
  let stretch : Matrix (Fin 3) (Fin 3) ℝ := !![1, 0, 0; 0, scaling 0, 0; 0, 0, scaling 1]
  let rotate_x : Matrix (Fin 3) (Fin 3) ℝ :=
    !![1, 0, 0; 0, Real.cos (-a0), -Real.sin (-a0); 0, Real.sin (-a0), Real.cos (-a0)]
  let rotate_y : Matrix (Fin 3) (Fin 3) ℝ :=
    !![Real.cos (-a1), 0, Real.sin (-a1); 0, 1, 0; -Real.sin (-a1), 0, Real.cos (-a1)]
  let rotate_z : Matrix (Fin 3) (Fin 3) ℝ :=
    !![Real.cos (-a2), -Real.sin (-a2), 0; Real.sin (-a2), Real.cos (-a2), 0; 0, 0, 1]
  let rot_tot := rotate_z * (rotate_y * rotate_x)
  stretch *ᵥ (rot_tot *ᵥ x) + center

/-- `np.amax(l)`: `ValueError` on an empty array. -/
def amax : List ℝ → Py ℝ
  | [] => .error .valueError
  | x :: xs => .ok (xs.foldl max x)

/-- `np.amin(l)`: `ValueError` on an empty array. -/
def amin : List ℝ → Py ℝ
  | [] => .error .valueError
  | x :: xs => .ok (xs.foldl min x)

/-- `np.mean(l)` of a non-empty array. -/
def mean (l : List ℝ) : ℝ := l.sum / l.length

/-- The index pairs of `scipy.spatial.distance.pdist` in its order: (0,1),(0,2),...,(1,2),... -/
def pdistPairs (n : ℕ) : List (Fin n × Fin n) :=
  (List.finRange n).flatMap fun i =>
    ((List.finRange n).filter fun j => i < j).map fun j => (i, j)

/-- The index pairs selected by `d[(indices[0] > indices[1])]`, row-major; core.py:446-448 -/
def lowerPairs (n : ℕ) : List (Fin n × Fin n) :=
  (List.finRange n).flatMap fun i =>
    ((List.finRange n).filter fun j => i > j).map fun j => (i, j)

/-- Pair distances and half squared differences `d, g`; core.py:431-453.  In the geographic branch
`x1` varies along columns and `x2` along rows, so `d[i, j]` is the distance from point `j` to `i`. -/
def pairDistances {n m : ℕ} (X : Fin n → Fin m → ℝ) (y : Fin n → ℝ) (coordinatesType : String) :
    Py (List (ℝ × ℝ)) :=
  if coordinatesType = "euclidean" then
    .ok ((pdistPairs n).map fun p => (euclid (X p.1) (X p.2), (1 / 2) * (y p.1 - y p.2) ^ 2))
  else if coordinatesType = "geographic" then
    if h : m = 2 then
      let lon := fun i => X i ⟨0, by omega⟩
      let lat := fun i => X i ⟨1, by omega⟩
      .ok ((lowerPairs n).map fun p =>
        (greatCircleDistance (lon p.2) (lat p.2) (lon p.1) (lat p.1),
          (1 / 2) * (y p.2 - y p.1) ^ 2))
    else .error .valueError
  else .error .valueError

/-- `bins`: `[dmin + n * dd for n in range(nlags)]` followed by `dmax + 0.001`; core.py:461-466 -/
def binEdges (dmin dmax : ℝ) (nlags : ℕ) : List ℝ :=
  let dd := (dmax - dmin) / nlags
  ((List.range nlags).map fun k : ℕ => dmin + (k : ℝ) * dd) ++ [dmax + 1 / 1000]

open Classical in
/-- The pairs in bin `k`: `(d >= bins[k]) & (d < bins[k + 1])`; core.py:492-494 -/
def inBin (dg : List (ℝ × ℝ)) (lo hi : ℝ) : List (ℝ × ℝ) :=
  dg.filter fun p => lo ≤ p.1 ∧ p.1 < hi

/-- The loop over bins with the final removal of empty (NaN) bins; core.py:484-501.  Returns the list
of (lag, semivariance). -/
def binned (dg : List (ℝ × ℝ)) (edges : List ℝ) : List (ℝ × ℝ) :=
  (edges.zip edges.tail).filterMap fun e =>
    let b := inBin dg e.1 e.2
    if 0 < b.length then some (mean (b.map Prod.fst), mean (b.map Prod.snd)) else none

/-- The experimental variogram part of `_initialize_variogram_model`; core.py:431-501 -/
def experimentalVariogram {n m : ℕ} (X : Fin n → Fin m → ℝ) (y : Fin n → ℝ) (nlags : ℕ)
    (coordinatesType : String) : Py (List (ℝ × ℝ)) := do
  let dg ← pairDistances X y coordinatesType
  let dmax ← amax (dg.map Prod.fst)
  let dmin ← amin (dg.map Prod.fst)
  return binned dg (binEdges dmin dmax nlags)

/-- The logistic weights of `_variogram_residuals` with `weight=True`; core.py:567-573.
(`drange = 0` gives NaN in numpy; `weightCheck` below refuses it.) -/
def lagWeights (x : List ℝ) : Py (List ℝ) := do
  let mx ← amax x
  let mn ← amin x
  let drange := mx - mn
  let k := 2.1972 / (0.1 * drange)
  let x0 := 0.7 * drange + mn
  let weights := x.map fun xi => 1 / (1 + Real.exp (-k * (x0 - xi)))
  return weights.map fun w => w / weights.sum

/-- `_variogram_residuals`; core.py:538-579 -/
def variogramResiduals (params : List ℝ) (x y : List ℝ) (f : VFun) (weight : Bool) :
    Py (List ℝ) := do
  if weight then
    let w ← lagWeights x
    let g ← f params
    return (List.zipWith (fun xi yi => g xi - yi) x y).zipWith (fun r wi => r * wi) w
  else
    let g ← f params
    return List.zipWith (fun xi yi => g xi - yi) x y

/-- Arguments handed to `scipy.optimize.least_squares`: start vector (an entry is `none` if it is
NaN), lower and upper bounds (`⊤` is `np.inf`). -/
structure LsqProblem where
  x0 : List (Option ℝ)
  lb : List ℝ
  ub : List (WithTop ℝ)

open Classical in
/-- Start vector and bounds of `_calculate_variogram_model`; core.py:615-640.  `0/0` (a single
distinct lag) is NaN. -/
def lsqProblem (lags semivariance : List ℝ) (model : String) : Py LsqProblem := do
  if model = "linear" then
    let maxs ← amax semivariance
    let mins ← amin semivariance
    let maxl ← amax lags
    let minl ← amin lags
    return { x0 := [if maxl - minl = 0 then none else some ((maxs - mins) / (maxl - minl)), some mins]
             lb := [0, 0]
             ub := [⊤, (maxs : WithTop ℝ)] }
  else if model = "power" then
    let maxs ← amax semivariance
    let mins ← amin semivariance
    let maxl ← amax lags
    let minl ← amin lags
    return { x0 := [if maxl - minl = 0 then none else some ((maxs - mins) / (maxl - minl)),
                    some 1.1, some mins]
             lb := [0, 0.001, 0]
             ub := [⊤, ((1.999 : ℝ) : WithTop ℝ), (maxs : WithTop ℝ)] }
  else
    let maxs ← amax semivariance
    let mins ← amin semivariance
    let maxl ← amax lags
    return { x0 := [some (maxs - mins), some (0.25 * maxl), some mins]
             lb := [0, 0, 0]
             ub := [((10 * maxs : ℝ) : WithTop ℝ), (maxl : WithTop ℝ), (maxs : WithTop ℝ)] }

/-- The external procedures the code calls.  Assumptions about them are separate predicates. -/
structure Env where
  /-- the minimiser inside `scipy.optimize.least_squares`: residual function, problem ↦ `res.x` -/
  lsq : (List ℝ → Py (List ℝ)) → LsqProblem → List ℝ
  /-- `cKDTree(data).query(q, k=k, eps=0.0)`: indices of `k` nearest neighbours, in its own order -/
  knn : {m n : ℕ} → (Fin n → Fin m → ℝ) → (Fin m → ℝ) → ℕ → List (Fin n)
  /-- can `from .lib.cok import ...` be executed? (ok.py:895-907) -/
  cAvailable : Bool
  /-- what unchecked C code returns after reading past the end of an array (ok.py:962-969 with
  `n_closest_points` larger than the data set) -/
  outOfBounds : ℕ → ℝ × ℝ
  /-- `GSTOOLS_INTERFACE`/version data of `compat_gstools.py`: installed version `(major, minor)` -/
  gstoolsVersion : Option (ℕ × ℕ)
  /-- the value of a variogram function at an infinite distance, which the KD-tree reports for missing
  neighbours; `none`: infinite or not a number -/
  atInfinity : (ℝ → ℝ) → Option ℝ := fun _ => none

open Classical in
/-- The checks at the head of `scipy.optimize.least_squares`: every lower bound strictly below its
upper bound, start vector within the bounds (NaN is not). -/
def lsqChecks (p : LsqProblem) : Py Unit :=
  if ¬ (∀ b ∈ p.lb.zip p.ub, ((b.1 : ℝ) : WithTop ℝ) < b.2) then .error .valueError
  else if ¬ (∀ b ∈ p.x0.zip (p.lb.zip p.ub),
      ∃ v, b.1 = some v ∧ b.2.1 ≤ v ∧ (v : WithTop ℝ) ≤ b.2.2) then .error .valueError
  else .ok ()

open Classical in
/-- The residuals at the start vector must be finite: `least_squares` raises `ValueError` otherwise.  They
are NaN if `weight=True` and all lags are equal (`k = 2.1972 / 0 = inf`, `-k * 0 = nan`; core.py:567-573). -/
def weightCheck (lags : List ℝ) (weight : Bool) : Py Unit := do
  let mx ← amax lags
  let mn ← amin lags
  if weight = true ∧ mx - mn = 0 then throw .valueError else return ()

/-- `_calculate_variogram_model`; core.py:582-651 -/
def calculateVariogramModel (env : Env) (lags semivariance : List ℝ) (model : String) (f : VFun)
    (weight : Bool) : Py (List ℝ) := do
  let p ← lsqProblem lags semivariance model
  lsqChecks p
  weightCheck lags weight
  return env.lsq (fun params => variogramResiduals params lags semivariance f weight) p

/-- `_initialize_variogram_model`; core.py:379-535.  Returns (lags with semivariances, parameters). -/
def initializeVariogramModel {n m : ℕ} (env : Env) (X : Fin n → Fin m → ℝ) (y : Fin n → ℝ)
    (model : String) (params : Option (List ℝ)) (f : VFun) (nlags : ℕ) (weight : Bool)
    (coordinatesType : String) : Py (List (ℝ × ℝ) × List ℝ) := do
  let ev ← experimentalVariogram X y nlags coordinatesType
  match params with
  | some ps =>
    if model = "linear" ∧ ps.length ≠ 2 then throw .valueError
    else if model ∈ ["power", "spherical", "exponential", "gaussian", "hole-effect"]
        ∧ ps.length ≠ 3 then throw .valueError
    else return (ev, ps)
  | none =>
    if model = "custom" then throw .valueError
    else
      let ps ← calculateVariogramModel env (ev.map Prod.fst) (ev.map Prod.snd) model f weight
      return (ev, ps)

/-- Square distance matrix and distances to the evaluation point in `_krige`; core.py:704-732.
In the geographic branch `d[i, j]` is computed from `j` to `i`. -/
def krigeDistances {n m : ℕ} (X : Fin n → Fin m → ℝ) (coords : Fin m → ℝ)
    (coordinatesType : String) : Py ((Fin n → Fin n → ℝ) × (Fin n → ℝ)) :=
  if coordinatesType = "euclidean" then
    .ok (fun i j => euclid (X i) (X j), fun i => euclid (X i) coords)
  else if coordinatesType = "geographic" then
    if h : m = 2 then
      let i0 : Fin m := ⟨0, by omega⟩
      let i1 : Fin m := ⟨1, by omega⟩
      .ok (fun i j => greatCircleDistance (X j i0) (X j i1) (X i i0) (X i i1),
        fun i => greatCircleDistance (X i i0) (X i i1) (coords i0) (coords i1))
    else .error .valueError
  else .error .valueError

/-- `np.zeros((N, N))` -/
def npZeros (N : ℕ) : Matrix (Fin N) (Fin N) ℝ := fun _ _ => 0

/-- `a[:n, :n] = v` -/
def setBlock {N : ℕ} (a : Matrix (Fin N) (Fin N) ℝ) (n : ℕ) (v : Fin n → Fin n → ℝ) :
    Matrix (Fin N) (Fin N) ℝ :=
  fun i j => if hi : i.val < n then if hj : j.val < n then v ⟨i, hi⟩ ⟨j, hj⟩ else a i j else a i j

/-- `np.fill_diagonal(a, v)` -/
def fillDiagonal {N : ℕ} (a : Matrix (Fin N) (Fin N) ℝ) (v : ℝ) : Matrix (Fin N) (Fin N) ℝ :=
  fun i j => if i = j then v else a i j

/-- `a[r, :] = v` -/
def setRow {N : ℕ} (a : Matrix (Fin N) (Fin N) ℝ) (r : ℕ) (v : ℝ) : Matrix (Fin N) (Fin N) ℝ :=
  fun i j => if i.val = r then v else a i j

/-- `a[:, c] = v` -/
def setCol {N : ℕ} (a : Matrix (Fin N) (Fin N) ℝ) (c : ℕ) (v : ℝ) : Matrix (Fin N) (Fin N) ℝ :=
  fun i j => if j.val = c then v else a i j

/-- `a[r, c] = v` -/
def setEntry {N : ℕ} (a : Matrix (Fin N) (Fin N) ℝ) (r c : ℕ) (v : ℝ) : Matrix (Fin N) (Fin N) ℝ :=
  fun i j => if i.val = r ∧ j.val = c then v else a i j

/-- `b[:n, 0] = v` -/
def setHead {N : ℕ} (b : Fin N → ℝ) (n : ℕ) (v : Fin n → ℝ) : Fin N → ℝ :=
  fun i => if hi : i.val < n then v ⟨i, hi⟩ else b i

/-- `b[r, 0] = v` -/
def setAt {N : ℕ} (b : Fin N → ℝ) (r : ℕ) (v : ℝ) : Fin N → ℝ :=
  fun i => if i.val = r then v else b i

open Classical in
/-- `b[np.where(cond)[0], 0] = v` -/
def setWhere {N : ℕ} (b : Fin N → ℝ) (n : ℕ) (cond : Fin n → Prop) (v : ℝ) : Fin N → ℝ :=
  fun i => if ∃ hi : i.val < n, cond ⟨i, hi⟩ then v else b i

/-- Kriging matrix as assembled in core.py:735-741 -/
def coreKrigingMatrix (n : ℕ) (γ : ℝ → ℝ) (d : Fin n → Fin n → ℝ) :
    Matrix (Fin (n + 1)) (Fin (n + 1)) ℝ :=
  let a := npZeros (n + 1)
  let a := setBlock a n fun i j => -γ (d i j)
  let a := fillDiagonal a 0
  let a := setRow a n 1
  let a := setCol a n 1
  let a := setEntry a n n 0
  a

open Classical in
/-- `_krige`; core.py:654-756.  Only the *first* coincident index is zeroed (`flatnonzero(...)[0]`). -/
def krige {n m : ℕ} (X : Fin n → Fin m → ℝ) (y : Fin n → ℝ) (coords : Fin m → ℝ) (f : VFun)
    (params : List ℝ) (coordinatesType : String) (pseudoInv : Bool) : Py (ℝ × ℝ) := do
  let (d, bd) ← krigeDistances X coords coordinatesType
  let zeroValue : Prop := ∃ i, |bd i| ≤ eps
  let zeroIndex : List (Fin n) := (List.finRange n).filter fun i => bd i ≤ eps
  let γ ← f params
  let a := coreKrigingMatrix n γ d
  let b : Fin (n + 1) → ℝ := fun _ => 0
  let b := setHead b n fun i => -γ (bd i)
  let b := if zeroValue then
      match zeroIndex.head? with
      | some k => setAt b k.val 0
      | none => b
    else b
  let b := setAt b n 1
  let res ← if pseudoInv then pure (scipyPinv a *ᵥ b) else scipySolve a b
  let zinterp := ∑ i : Fin n, res i.castSucc * y i
  let sigmasq := ∑ i, res i * -b i
  return (zinterp, sigmasq)

open Classical in
/-- One pass of the loop of `_find_statistics` (`i ≥ 1`); core.py:805-829.  `none` when nothing is
kept: either the error is (almost) zero or, for a negative `ss`, `np.sqrt` gives NaN which the final
`sigma > eps` filter drops. -/
def statEntry {n m : ℕ} (X : Fin n → Fin m → ℝ) (y : Fin n → ℝ) (f : VFun) (params : List ℝ)
    (coordinatesType : String) (pseudoInv : Bool) (i : Fin n) : Py (Option (ℝ × ℝ)) := do
  let (k, ss) ← krige (fun j : Fin i.val => X (Fin.castLE i.isLt.le j))
    (fun j : Fin i.val => y (Fin.castLE i.isLt.le j)) (X i) f params coordinatesType pseudoInv
  if |ss| < eps then return none
  else if ss < 0 then return none
  else if Real.sqrt ss > eps then return some (y i - k, Real.sqrt ss)
  else return none

/-- The statistics stored on the objects: `delta`, `sigma`, `epsilon`. -/
structure Stats where
  delta : List ℝ
  sigma : List ℝ
  epsilon : List ℝ

/-- `_find_statistics`; core.py:759-836 (index 0 is skipped) -/
def findStatistics {n m : ℕ} (X : Fin n → Fin m → ℝ) (y : Fin n → ℝ) (f : VFun) (params : List ℝ)
    (coordinatesType : String) (pseudoInv : Bool) : Py Stats := do
  let entries ← ((List.finRange n).filter fun i => i.val ≠ 0).mapM
    (statEntry X y f params coordinatesType pseudoInv)
  let kept := entries.filterMap id
  return { delta := kept.map Prod.fst
           sigma := kept.map Prod.snd
           epsilon := kept.map fun p => p.1 / p.2 }

/-- `calcQ1`; core.py:839-841 -/
def calcQ1 (epsilon : List ℝ) : ℝ := |epsilon.sum / ((epsilon.length : ℝ) - 1)|

/-- `calcQ2`; core.py:844-846 -/
def calcQ2 (epsilon : List ℝ) : ℝ := (epsilon.map (· ^ 2)).sum / ((epsilon.length : ℝ) - 1)

/-- `calc_cR`; core.py:849-851 -/
def calcCR (Q2 : ℝ) (sigma : List ℝ) : ℝ :=
  Q2 * Real.exp ((sigma.map fun s => Real.log (s ^ 2)).sum / sigma.length)

end
end PyKrige
