import Verif.Model.OK

/-!
# Values that may be nan

The constructors accept nan among the data values (`np.array(z, dtype=np.float64)`, no check). `Option ℝ` is a floating point
number or nan (`none`); every operation with a nan gives nan, also `0 * nan`. Coordinates, parameters and drift values are
numbers. The functions below are those of `Model/Core.lean` and `Model/OK.lean` with values of this kind; everything that does
not touch the values is taken from there.
-/

namespace PyKrige
noncomputable section
open Matrix

/-- `np.sum(x * z)`, `np.dot(x, z)` and the loops `ztmp += x[k] * Z[k]`; ok.py:680, 717, 755, core.py:753, lib/cok.pyx:89-91, 184-186 -/
def nanDot {k : ℕ} (x : Fin k → ℝ) (z : Fin k → Option ℝ) : Option ℝ :=
  (List.finRange k).foldl (fun acc i => acc.bind fun t => (z i).map fun v => t + x i * v) (some 0)

/-- `np.mean` of a non-empty array; core.py:494 -/
def nanMean (l : List (Option ℝ)) : Option ℝ :=
  (l.foldl (fun acc v => acc.bind fun t => v.map fun u => t + u) (some 0)).map (· / l.length)

/-- Half the squared difference; core.py:433, 446 -/
def nanHalfSq (a b : Option ℝ) : Option ℝ := a.bind fun u => b.map fun v => (1 / 2) * (u - v) ^ 2

/-- Pair distances and half squared differences; core.py:431-453. -/
def pairDistancesNan {n m : ℕ} (X : Fin n → Fin m → ℝ) (y : Fin n → Option ℝ) (coordinatesType : String) :
    Py (List (ℝ × Option ℝ)) :=
  if coordinatesType = "euclidean" then
    .ok ((pdistPairs n).map fun p => (euclid (X p.1) (X p.2), nanHalfSq (y p.1) (y p.2)))
  else if coordinatesType = "geographic" then
    if h : m = 2 then
      let lon := fun i => X i ⟨0, by omega⟩
      let lat := fun i => X i ⟨1, by omega⟩
      .ok ((lowerPairs n).map fun p =>
        (greatCircleDistance (lon p.2) (lat p.2) (lon p.1) (lat p.1), nanHalfSq (y p.2) (y p.1)))
    else .error .valueError
  else .error .valueError

open Classical in
/-- The loop over bins; `lags[~np.isnan(semivariance)]` removes the empty bins and those whose mean is nan; core.py:484-501. -/
def binnedNan (dg : List (ℝ × Option ℝ)) (edges : List ℝ) : List (ℝ × ℝ) :=
  (edges.zip edges.tail).filterMap fun e =>
    let b := dg.filter fun p => e.1 ≤ p.1 ∧ p.1 < e.2
    if 0 < b.length then (nanMean (b.map Prod.snd)).map fun g => (mean (b.map Prod.fst), g) else none

/-- The experimental variogram; core.py:431-501 -/
def experimentalVariogramNan {n m : ℕ} (X : Fin n → Fin m → ℝ) (y : Fin n → Option ℝ) (nlags : ℕ)
    (coordinatesType : String) : Py (List (ℝ × ℝ)) := do
  let dg ← pairDistancesNan X y coordinatesType
  let dmax ← amax (dg.map Prod.fst)
  let dmin ← amin (dg.map Prod.fst)
  return binnedNan dg (binEdges dmin dmax nlags)

/-- `_initialize_variogram_model`; core.py:379-535. -/
def initializeVariogramModelNan {n m : ℕ} (env : Env) (X : Fin n → Fin m → ℝ) (y : Fin n → Option ℝ)
    (model : String) (params : Option (List ℝ)) (f : VFun) (nlags : ℕ) (weight : Bool)
    (coordinatesType : String) : Py (List (ℝ × ℝ) × List ℝ) := do
  let ev ← experimentalVariogramNan X y nlags coordinatesType
  match params with
  | some ps =>
    if model = "linear" ∧ ps.length ≠ 2 then throw .valueError
    else if model ∈ ["power", "spherical", "exponential", "gaussian", "hole-effect"]
        ∧ ps.length ≠ 3 then throw .valueError
    else return (ev, ps)
  | none =>
    if model = "custom" then throw .valueError
    else
      let ps ← calculateVariogramModel env (ev.map Prod.fst) (ev.map Prod.snd) model f weight
      return (ev, ps)

open Classical in
/-- `_krige`; core.py:654-756. -/
def krigeNan {n m : ℕ} (X : Fin n → Fin m → ℝ) (y : Fin n → Option ℝ) (coords : Fin m → ℝ) (f : VFun)
    (params : List ℝ) (coordinatesType : String) (pseudoInv : Bool) : Py (Option ℝ × ℝ) := do
  let (d, bd) ← krigeDistances X coords coordinatesType
  let zeroValue : Prop := ∃ i, |bd i| ≤ eps
  let zeroIndex : List (Fin n) := (List.finRange n).filter fun i => bd i ≤ eps
  let γ ← f params
  let a := coreKrigingMatrix n γ d
  let b : Fin (n + 1) → ℝ := fun _ => 0
  let b := setHead b n fun i => -γ (bd i)
  let b := if zeroValue then
      match zeroIndex.head? with
      | some k => setAt b k.val 0
      | none => b
    else b
  let b := setAt b n 1
  let res ← if pseudoInv then pure (scipyPinv a *ᵥ b) else scipySolve a b
  let zinterp := nanDot (fun i : Fin n => res i.castSucc) y
  let sigmasq := ∑ i, res i * -b i
  return (zinterp, sigmasq)

open Classical in
/-- One pass of the loop of `_find_statistics`; core.py:805-829: a nan residual is kept if its sigma is. -/
def statEntryNan {n m : ℕ} (X : Fin n → Fin m → ℝ) (y : Fin n → Option ℝ) (f : VFun) (params : List ℝ)
    (coordinatesType : String) (pseudoInv : Bool) (i : Fin n) : Py (Option (Option ℝ × ℝ)) := do
  let (k, ss) ← krigeNan (fun j : Fin i.val => X (Fin.castLE i.isLt.le j))
    (fun j : Fin i.val => y (Fin.castLE i.isLt.le j)) (X i) f params coordinatesType pseudoInv
  if |ss| < eps then return none
  else if ss < 0 then return none
  else if Real.sqrt ss > eps then return some ((y i).bind fun v => k.map fun t => v - t, Real.sqrt ss)
  else return none

/-- `delta`, `sigma`, `epsilon`. -/
structure NanStats where
  delta : List (Option ℝ)
  sigma : List ℝ
  epsilon : List (Option ℝ)

/-- `_find_statistics`; core.py:759-836 -/
def findStatisticsNan {n m : ℕ} (X : Fin n → Fin m → ℝ) (y : Fin n → Option ℝ) (f : VFun) (params : List ℝ)
    (coordinatesType : String) (pseudoInv : Bool) : Py NanStats := do
  let entries ← ((List.finRange n).filter fun i => i.val ≠ 0).mapM
    (statEntryNan X y f params coordinatesType pseudoInv)
  let kept := entries.filterMap id
  return { delta := kept.map Prod.fst
           sigma := kept.map Prod.snd
           epsilon := kept.map fun p => p.1.map fun t => t / p.2 }

/-- The returned arrays: an entry is masked (`none`), nan (`some none`) or a number. -/
structure NanResult where
  shape : List ℕ
  z : List (Option (Option ℝ))
  ss : List (Option ℝ)

/-- `np.ma.array(zvalues, mask=mask)` for style 'masked'; ok.py:1012-1014 -/
def applyMaskNan (style : String) (mask : List Bool) (vals : List (Option ℝ)) : List (Option (Option ℝ)) :=
  if style = "masked" then List.zipWith (fun v m => if m then none else some v) vals mask
  else vals.map some

/-- The `OrdinaryKriging` object: `Z` and the statistics may hold nan; the fields `Z` and `stats` of `obj` are placeholders
(0, `none`) and are never read. -/
structure NanOK (n : ℕ) where
  obj : OK n
  Z : Fin n → Option ℝ
  stats : Option NanStats

/-- `OrdinaryKriging.__init__`; ok.py:187-377 -/
def NanOK.create {n : ℕ} (env : Env) (x y : Fin n → ℝ) (z : Fin n → Option ℝ) (args : OKArgs) : Py (NanOK n) := do
  if args.pseudoInvType ∉ ["pinv", "pinvh"] then throw .valueError
  let exact ← match args.exactValues with
    | .bool b => pure b
    | .notBool => throw .valueError
  let (name, model, fArg, pArg, scaling, angle) ← OK.resolveModel env args.coordinatesType
    args.variogramModel args.variogramFunction args.params args.anisotropyScaling
    args.anisotropyAngle
  let (f, fname) ← chooseFunction name fArg
  let (xc, yc, scaling, angle, adj) ← OK.setupCoordinates x y args.coordinatesType scaling angle
  let vp ← makeVariogramParameterList name pArg
  let (lags, ps) ← initializeVariogramModelNan env adj z name vp f args.nlags args.weight
    args.coordinatesType
  let stats ← if args.enableStatistics then
      some <$> findStatisticsNan adj z f ps args.coordinatesType args.pseudoInv
    else pure none
  return { obj :=
             { variogramModel := .name name
               model := model
               exactValues := exact
               coordinatesType := args.coordinatesType
               pseudoInv := args.pseudoInv
               pseudoInvType := args.pseudoInvType
               variogramFunction := f
               functionName := fname
               X_ORIG := x
               Y_ORIG := y
               Z := fun _ => 0
               XCENTER := xc
               YCENTER := yc
               anisotropyScaling := scaling
               anisotropyAngle := angle
               X_ADJUSTED := fun i => adj i 0
               Y_ADJUSTED := fun i => adj i 1
               lags := lags
               params := ps
               paramsInt := intParams pArg ps args.paramsAllInt
               stats := none }
           Z := z
           stats := stats }

open Classical in
/-- `_exec_vector(a, bd, mask)`; ok.py:648-683 -/
def NanOK.execVector {n : ℕ} (t : NanOK n) (a : Matrix (Fin (n + 1)) (Fin (n + 1)) ℝ)
    (bd : List (Fin n → ℝ)) : Py (List (Option ℝ × ℝ)) := do
  let s := t.obj
  let a_inv ← invertPython s.pseudoInv s.pseudoInvType a
  let zeroValue : Prop := ∃ row ∈ bd, ∃ k, |row k| ≤ eps
  let γ ← s.variogramFunction s.params
  let b : List (Fin (n + 1) → ℝ) := bd.map fun row =>
    let b : Fin (n + 1) → ℝ := fun _ => 0
    let b := setHead b n fun k => -γ (row k)
    let b := if zeroValue ∧ s.exactValues = true then setWhere b n (fun k => |row k| ≤ eps) 0 else b
    setAt b n 1
  return b.map fun b =>
    let x := a_inv *ᵥ b
    (nanDot (fun k : Fin n => x k.castSucc) t.Z, ∑ k, x k * -b k)

open Classical in
/-- Body of the loop of `_exec_loop` at an unmasked point; ok.py:698-718 -/
def NanOK.loopBody {n : ℕ} (t : NanOK n) (a_inv : Matrix (Fin (n + 1)) (Fin (n + 1)) ℝ)
    (bd : Fin n → ℝ) : Py (Option ℝ × ℝ) := do
  let s := t.obj
  let zeroValue : Prop := ∃ k, |bd k| ≤ eps
  let γ ← s.variogramFunction s.params
  let b : Fin (n + 1) → ℝ := fun _ => 0
  let b := setHead b n fun k => -γ (bd k)
  let b := if zeroValue ∧ s.exactValues = true then setWhere b n (fun k => |bd k| ≤ eps) 0 else b
  let b := setAt b n 1
  let x := a_inv *ᵥ b
  return (nanDot (fun k : Fin n => x k.castSucc) t.Z, ∑ k, x k * -b k)

/-- `_exec_loop(a, bd_all, mask)`; ok.py:685-720. -/
def NanOK.execLoop {n : ℕ} (t : NanOK n) (a : Matrix (Fin (n + 1)) (Fin (n + 1)) ℝ)
    (bdAll : List (Fin n → ℝ)) (mask : List Bool) : Py (List (Option ℝ × ℝ)) := do
  let a_inv ← invertPython t.obj.pseudoInv t.obj.pseudoInvType a
  (bdAll.zip mask).mapM fun p => if p.2 then pure (some 0, 0) else t.loopBody a_inv p.1

open Classical in
/-- Body of the loop of `_exec_loop_moving_window` at an unmasked point; ok.py:732-756 -/
def NanOK.windowBody {n : ℕ} (t : NanOK n) (aAll : Matrix (Fin (n + 1)) (Fin (n + 1)) ℝ)
    (w : Window n) : Py (Option ℝ × ℝ) := do
  let s := t.obj
  let k := w.sel.length
  let a : Matrix (Fin (k + 1)) (Fin (k + 1)) ℝ := aAll.submatrix w.selector w.selector
  let zeroValue : Prop := ∃ i, |w.bd i| ≤ eps
  let γ ← s.variogramFunction s.params
  let b : Fin (k + 1) → ℝ := fun _ => 0
  let b := setHead b k fun i => -γ (w.bd i)
  let b := if zeroValue ∧ s.exactValues = true then setWhere b k (fun i => |w.bd i| ≤ eps) 0 else b
  let b := setAt b k 1
  let x ← scipySolve a b
  return (nanDot (fun i : Fin k => x i.castSucc) (fun i => t.Z (w.sel.get i)), -∑ i, x i * b i)

/-- `_exec_loop_moving_window(a_all, bd_all, mask, bd_idx)`; ok.py:722-758 -/
def NanOK.execLoopMovingWindow {n : ℕ} (t : NanOK n) (aAll : Matrix (Fin (n + 1)) (Fin (n + 1)) ℝ)
    (ws : List (Window n)) (mask : List Bool) : Py (List (Option ℝ × ℝ)) :=
  (ws.zip mask).mapM fun p => if p.2 then pure (some 0, 0) else t.windowBody aAll p.1

/-- Body of the loop of `_c_exec_loop` at an unmasked point; lib/cok.pyx:60-94 -/
def NanOK.cLoopBody {n : ℕ} (t : NanOK n) (γ : ℝ → ℝ) (a_inv : Matrix (Fin (n + 1)) (Fin (n + 1)) ℝ)
    (bd : Fin n → ℝ) : Option ℝ × ℝ :=
  let b : Fin (n + 1) → ℝ := fun _ => 0
  let b := setHead b n fun k => γ (bd k) * -1
  let b := setAt b n 1
  let b := if t.obj.exactValues then checkBVect n bd b else b
  let x := a_inv *ᵥ b
  (nanDot (fun k : Fin n => x k.castSucc) t.Z, -∑ k, x k * b k)

/-- `_c_exec_loop(a_all, bd_all, mask, n, pars)`; lib/cok.pyx:14-96 -/
def NanOK.cExecLoop {n : ℕ} (t : NanOK n) (a : Matrix (Fin (n + 1)) (Fin (n + 1)) ℝ)
    (bdAll : List (Fin n → ℝ)) (mask : List Bool) : Py (List (Option ℝ × ℝ)) := do
  let γ ← t.obj.cVariogram
  let a_inv ← invertC t.obj.pseudoInv t.obj.pseudoInvType a
  return (bdAll.zip mask).map fun p => if p.2 then (some 0, 0) else t.cLoopBody γ a_inv p.1

/-- Body of the loop of `_c_exec_loop_moving_window` at an unmasked point; lib/cok.pyx:125-191 -/
def NanOK.cWindowBody {n : ℕ} (t : NanOK n) (γ : ℝ → ℝ) (aAll : Matrix (Fin (n + 1)) (Fin (n + 1)) ℝ)
    (w : Window n) : Py (Option ℝ × ℝ) := do
  let k := w.sel.length
  let b : Fin (k + 1) → ℝ := fun _ => 0
  let b := setHead b k fun i => -γ (w.bd i)
  let b := setAt b k 1
  let b := if t.obj.exactValues then checkBVect k w.bd b else b
  let x ← dgesv (w.aSelection aAll) b
  return (nanDot (fun i : Fin k => x i.castSucc) (fun i => t.Z (w.sel.get i)), -∑ i, x i * b i)

/-- `_c_exec_loop_moving_window(...)`; lib/cok.pyx:98-193 -/
def NanOK.cExecLoopMovingWindow {n : ℕ} (t : NanOK n) (aAll : Matrix (Fin (n + 1)) (Fin (n + 1)) ℝ)
    (ws : List (Window n)) (mask : List Bool) : Py (List (Option ℝ × ℝ)) := do
  let γ ← t.obj.cVariogram
  (ws.zip mask).mapM fun p => if p.2 then pure (some 0, 0) else t.cWindowBody γ aAll p.1

/-- The moving-window branch; ok.py:922-976. Windows larger than the data set (C42: an error, or arbitrary numbers) as in
`OK.movingWindow`. -/
def NanOK.movingWindow {n : ℕ} (env : Env) (t : NanOK n) (a : Matrix (Fin (n + 1)) (Fin (n + 1)) ℝ)
    (qs : List (Fin 2 → ℝ)) (mask : List Bool) (backend : String) (k : ℕ) : Py (List (Option ℝ × ℝ)) :=
  if k ≤ n then
    let ws := qs.map (t.obj.neighbours env k)
    if backend = "loop" then t.execLoopMovingWindow a ws mask
    else if backend = "C" then t.cExecLoopMovingWindow a ws mask
    else .error .valueError
  else do
    let l ← t.obj.movingWindow env a qs mask backend k
    return l.map fun r => (some r.1, r.2)

/-- The branch without moving window; ok.py:977-1010 -/
def NanOK.globalKrige {n : ℕ} (t : NanOK n) (a : Matrix (Fin (n + 1)) (Fin (n + 1)) ℝ)
    (qs : List (Fin 2 → ℝ)) (mask : List Bool) (backend : String) : Py (List (Option ℝ × ℝ)) :=
  let bd : List (Fin n → ℝ) := qs.map fun q => t.obj.queryDist q
  if backend = "vectorized" then t.execVector a bd
  else if backend = "loop" then t.execLoop a bd mask
  else if backend = "C" then t.cExecLoop a bd mask
  else .error .valueError

/-- `execute(...)`; ok.py:760-1020 -/
def NanOK.execute {n : ℕ} (env : Env) (t : NanOK n) (args : ExecArgs) : Py NanResult := do
  if args.style ∉ ["grid", "masked", "points"] then throw .valueError
  if let some k := args.nClosest then
    if k ≤ 1 then throw .valueError
  let a ← t.obj.getKrigingMatrix
  let (pts, mask) ← queryPoints args
  let qs ← t.obj.adjustQuery args pts
  let backend := if args.backend = "C" ∧ ¬ env.cAvailable then "loop" else args.backend
  let res ← match args.nClosest with
    | some k => t.movingWindow env a qs mask backend k.toNat
    | none => t.globalKrige a qs mask backend
  return { shape := resultShape args
           z := applyMaskNan args.style mask (res.map Prod.fst)
           ss := applyMask args.style mask (res.map Prod.snd) }

end
end PyKrige
