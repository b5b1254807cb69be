import Verif.Spec.Query

/-!
# Drift terms of universal kriging

The values of all drift terms at a location, in the order: regional linear, point-log, external,
specified, functional.  `adj` gives the coordinates after the anisotropy correction.
-/

namespace PyKrige.Spec
noncomputable section

open Classical in
/-- Logarithm of a distance, -100 at distance 0. -/
def logDistance (r : ℝ) : ℝ := if r = 0 then -100 else Real.log r

/-- The external drift at a location (C23 says that it is the bilinear interpolant). -/
def externalAt (args : UKArgs) (p : ℝ × ℝ) : Py ℝ := do
  let e ← setupExternal args
  e.zScalar p.1 p.2

/-- Its value, 0 where there is none. -/
def externalValue (args : UKArgs) (p : ℝ × ℝ) : ℝ :=
  match externalAt args p with
  | .ok v => v
  | .error _ => 0

/-- The drift terms at `p`; `sv` are the specified drift values there. -/
def driftTerms2 (args : UKArgs) (adj : ℝ × ℝ → Fin 2 → ℝ) (sv : List ℝ) (p : ℝ × ℝ) : List ℝ :=
  (if "regional_linear" ∈ args.driftTerms then [adj p 0, adj p 1] else []) ++
  (if "point_log" ∈ args.driftTerms then (args.pointDrift.getD []).map fun w =>
    -w.2.2 * logDistance (euclid (adj p) (adj (w.1, w.2.1))) else []) ++
  (if "external_Z" ∈ args.driftTerms then [externalValue args p] else []) ++
  (if "specified" ∈ args.driftTerms then sv else []) ++
  (if "functional" ∈ args.driftTerms then
    match args.functionalDrift with
    | .list fs => fs.map fun g => g (adj p 0) (adj p 1)
    | .notList => []
   else [])

/-- The drift terms in three dimensions. -/
def driftTerms3 (args : UK3DArgs) (adj : ℝ × ℝ × ℝ → Fin 3 → ℝ) (sv : List ℝ) (p : ℝ × ℝ × ℝ) : List ℝ :=
  (if "regional_linear" ∈ args.driftTerms then [adj p 0, adj p 1, adj p 2] else []) ++
  (if "specified" ∈ args.driftTerms then sv else []) ++
  (if "functional" ∈ args.driftTerms then
    match args.functionalDrift with
    | .list fs => fs.map fun g => g (adj p 0) (adj p 1) (adj p 2)
    | .notList => []
   else [])

/-- The specified drift values at datum `i`, as passed to the constructor. -/
def specAtDatum (arg : ListArg (List ℝ)) (i : ℕ) : List ℝ :=
  match arg with
  | .list l => l.map fun term => term.getD i 0
  | .notList => []

/-- Entry `j` of an array of specified drift values passed to `execute`: flattened row by row; an array of
shape `(nx, ny)` is taken to be transposed. -/
def specEntry (ea : ExecArgs) (j : ℕ) : SpecArray → ℝ
  | .d1 l => l.getD j 0
  | .d2 r c get =>
    let nx := ea.xpoints.vals.length
    let ny := ea.ypoints.vals.length
    if r = ny ∧ c = nx then get (j / nx) (j % nx) else get (j % nx) (j / nx)

/-- The specified drift values at entry `j`, as passed to `execute`. -/
def specAtQuery (ea : UKExecArgs) (j : ℕ) : List ℝ :=
  match ea.spec with
  | .list l => l.map (specEntry ea.toExec j)
  | _ => []

/-- The same in three dimensions. -/
def specEntry3 (ea : ExecArgs3) (j : ℕ) : SpecArray3 → ℝ
  | .d1 l => l.getD j 0
  | .d2 => 0
  | .d3 d0 d1 d2 get =>
    let nx := ea.xpoints.vals.length
    let ny := ea.ypoints.vals.length
    let nz := ea.zpoints.vals.length
    if d0 = nz ∧ d1 = ny ∧ d2 = nx then get (j / nx / ny) (j / nx % ny) (j % nx)
    else get (j % nx) (j / nx % ny) (j / nx / ny)

def specAtQuery3 (ea : UK3DExecArgs) (j : ℕ) : List ℝ :=
  match ea.spec with
  | .list l => l.map (specEntry3 ea.toExec j)
  | _ => []

/-- `pick` for universal kriging: the specified drift values are carried along. -/
def pickUK (ea : UKExecArgs) (js : List ℕ) : UKExecArgs :=
  { toExec := pick ea.toExec js
    spec := match ea.spec with
      | .list l => .list (l.map fun a => .d1 (js.map fun j => specEntry ea.toExec j a))
      | o => o }

def pickUK3 (ea : UK3DExecArgs) (js : List ℕ) : UK3DExecArgs :=
  { toExec := pick3 ea.toExec js
    spec := match ea.spec with
      | .list l => .list (l.map fun a => .d1 (js.map fun j => specEntry3 ea.toExec j a))
      | o => o }

/-- The constructor arguments with everything that refers to locations shifted by `d`: the wells, the axes of the
external drift grid and the functional drifts. -/
def shiftedUK (args : UKArgs) (d : ℝ × ℝ) : UKArgs :=
  { args with
    pointDrift := args.pointDrift.map fun wells => wells.map fun w => (w.1 + d.1, w.2.1 + d.2, w.2.2)
    externalDriftX := args.externalDriftX.map fun l => l.map (· + d.1)
    externalDriftY := args.externalDriftY.map fun l => l.map (· + d.2)
    functionalDrift := match args.functionalDrift with
      | .list fs => .list (fs.map fun f => fun x y => f (x - d.1) (y - d.2))
      | .notList => .notList }

/-- The same in three dimensions. -/
def shiftedUK3 (args : UK3DArgs) (d : ℝ × ℝ × ℝ) : UK3DArgs :=
  { args with
    functionalDrift := match args.functionalDrift with
      | .list fs => .list (fs.map fun f => fun x y z => f (x - d.1) (y - d.2.1) (z - d.2.2))
      | .notList => .notList }

/-- The arguments of `UniversalKriging` for the data in the order `σ 0, σ 1, ...`: the arrays of the specified
drift are reordered along. -/
def reorderedUK (args : UKArgs) {n : ℕ} (σ : Fin n ≃ Fin n) : UKArgs :=
  { args with
    specifiedDrift := match args.specifiedDrift with
      | .list ls => .list (ls.map fun l => List.ofFn fun i => l.getD (σ i).val 0)
      | .notList => .notList }

/-- The same in three dimensions. -/
def reorderedUK3 (args : UK3DArgs) {n : ℕ} (σ : Fin n ≃ Fin n) : UK3DArgs :=
  { args with
    specifiedDrift := match args.specifiedDrift with
      | .list ls => .list (ls.map fun l => List.ofFn fun i => l.getD (σ i).val 0)
      | .notList => .notList }

end
end PyKrige.Spec
