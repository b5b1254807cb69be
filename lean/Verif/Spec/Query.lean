import Verif.Model.UK3D

/-!
# Which point does entry number `j` of a result array stand for?

Result arrays are flattened row by row (C order).
-/

namespace PyKrige.Spec
noncomputable section

/-- Two-dimensional `execute`: entry `j` of the flattened result.  For 'points' the `j`-th point; for 'grid'
and 'masked' the array has one row per y and one column per x. -/
def queryAt (args : ExecArgs) (j : ℕ) : Option (ℝ × ℝ) :=
  if args.style = "points" then do
    let x ← args.xpoints.vals[j]?
    let y ← args.ypoints.vals[j]?
    return (x, y)
  else do
    let x ← args.xpoints.vals[j % args.xpoints.vals.length]?
    let y ← args.ypoints.vals[j / args.xpoints.vals.length]?
    return (x, y)

/-- Three-dimensional `execute`: the array is indexed `[z, y, x]`. -/
def queryAt3 (args : ExecArgs3) (j : ℕ) : Option (ℝ × ℝ × ℝ) :=
  if args.style = "points" then do
    let x ← args.xpoints.vals[j]?
    let y ← args.ypoints.vals[j]?
    let z ← args.zpoints.vals[j]?
    return (x, y, z)
  else do
    let x ← args.xpoints.vals[j % args.xpoints.vals.length]?
    let y ← args.ypoints.vals[j / args.xpoints.vals.length % args.ypoints.vals.length]?
    let z ← args.zpoints.vals[j / args.xpoints.vals.length / args.ypoints.vals.length]?
    return (x, y, z)

/-- Is entry `j` of the flattened result masked?  Only with style 'masked'; a mask array may be given
transposed, which is recognised by its shape. -/
def maskedAt (args : ExecArgs) (j : ℕ) : Bool :=
  let nx := args.xpoints.vals.length
  let ny := args.ypoints.vals.length
  if args.style = "masked" then
    match args.mask with
    | none => false
    | some m => if m.rows = ny ∧ m.cols = nx then m.get (j / nx) (j % nx) else m.get (j % nx) (j / nx)
  else false

/-- The same in three dimensions: mask indexed `[z, y, x]`, or `[x, y, z]` if its shape says so. -/
def maskedAt3 (args : ExecArgs3) (j : ℕ) : Bool :=
  let nx := args.xpoints.vals.length
  let ny := args.ypoints.vals.length
  let nz := args.zpoints.vals.length
  if args.style = "masked" then
    match args.mask with
    | some (.arr d0 d1 d2 get) =>
      if d0 = nz ∧ d1 = ny ∧ d2 = nx then get (j / nx / ny) (j / nx % ny) (j % nx)
      else get (j % nx) (j / nx % ny) (j / nx / ny)
    | _ => false
  else false

/-- `execute('points', [p.1 for p in l], [p.2 for p in l], backend=b)` (floats). -/
def pointsCall (l : List (ℝ × ℝ)) (b : String) : ExecArgs :=
  { style := "points", xpoints := ⟨l.map Prod.fst, false⟩, ypoints := ⟨l.map Prod.snd, false⟩, backend := b }

/-- The same in three dimensions. -/
def pointsCall3 (l : List (ℝ × ℝ × ℝ)) (b : String) : ExecArgs3 :=
  { style := "points", xpoints := ⟨l.map Prod.fst, false⟩, ypoints := ⟨l.map fun p => p.2.1, false⟩
    zpoints := ⟨l.map fun p => p.2.2, false⟩, backend := b }

/-- The call of style 'points' that asks for entries number `js` of the call `ea`. -/
def pick (ea : ExecArgs) (js : List ℕ) : ExecArgs :=
  { ea with
    style := "points"
    xpoints := ⟨js.map fun j => ((queryAt ea j).getD (0, 0)).1, ea.xpoints.isInt⟩
    ypoints := ⟨js.map fun j => ((queryAt ea j).getD (0, 0)).2, ea.ypoints.isInt⟩ }

/-- The same in three dimensions. -/
def pick3 (ea : ExecArgs3) (js : List ℕ) : ExecArgs3 :=
  { ea with
    style := "points"
    xpoints := ⟨js.map fun j => ((queryAt3 ea j).getD (0, 0, 0)).1, ea.xpoints.isInt⟩
    ypoints := ⟨js.map fun j => ((queryAt3 ea j).getD (0, 0, 0)).2.1, ea.ypoints.isInt⟩
    zpoints := ⟨js.map fun j => ((queryAt3 ea j).getD (0, 0, 0)).2.2, ea.zpoints.isInt⟩ }

/-- The call that asks for one point only, everything else as in `ea`. -/
def atPoint (ea : ExecArgs) (p : ℝ × ℝ) : ExecArgs :=
  { ea with
    style := "points"
    xpoints := ⟨[p.1], ea.xpoints.isInt⟩
    ypoints := ⟨[p.2], ea.ypoints.isInt⟩ }

def atPoint3 (ea : ExecArgs3) (p : ℝ × ℝ × ℝ) : ExecArgs3 :=
  { ea with
    style := "points"
    xpoints := ⟨[p.1], ea.xpoints.isInt⟩
    ypoints := ⟨[p.2.1], ea.ypoints.isInt⟩
    zpoints := ⟨[p.2.2], ea.zpoints.isInt⟩ }

/-- `ea'` asks for the images under `T` of the points `ea` asks for, in the same layout and with the same options
(coordinates given as floats). -/
structure Moved (T : ℝ × ℝ → ℝ × ℝ) (ea ea' : ExecArgs) : Prop where
  style : ea'.style = ea.style
  mask : ea'.mask = ea.mask
  backend : ea'.backend = ea.backend
  nClosest : ea'.nClosest = ea.nClosest
  lengthX : ea'.xpoints.vals.length = ea.xpoints.vals.length
  lengthY : ea'.ypoints.vals.length = ea.ypoints.vals.length
  dtype : ea'.xpoints.isInt = false ∨ (ea'.xpoints.isInt = ea.xpoints.isInt ∧ ea'.ypoints.isInt = ea.ypoints.isInt)
  query : ∀ j, queryAt ea' j = (queryAt ea j).map T

/-- The same in three dimensions. -/
structure Moved3 (T : ℝ × ℝ × ℝ → ℝ × ℝ × ℝ) (ea ea' : ExecArgs3) : Prop where
  style : ea'.style = ea.style
  mask : ea'.mask = ea.mask
  backend : ea'.backend = ea.backend
  nClosest : ea'.nClosest = ea.nClosest
  lengthX : ea'.xpoints.vals.length = ea.xpoints.vals.length
  lengthY : ea'.ypoints.vals.length = ea.ypoints.vals.length
  lengthZ : ea'.zpoints.vals.length = ea.zpoints.vals.length
  dtype : ea'.xpoints.isInt = false ∨ (ea'.xpoints.isInt = ea.xpoints.isInt ∧
    ea'.ypoints.isInt = ea.ypoints.isInt ∧ ea'.zpoints.isInt = ea.zpoints.isInt)
  query : ∀ j, queryAt3 ea' j = (queryAt3 ea j).map T

/-- The call `ea` with all coordinates shifted (`xpoints + dx`, `ypoints + dy`); any style. -/
def shifted (ea : ExecArgs) (d : ℝ × ℝ) : ExecArgs :=
  { ea with
    xpoints := ⟨ea.xpoints.vals.map (· + d.1), false⟩
    ypoints := ⟨ea.ypoints.vals.map (· + d.2), false⟩ }

def shifted3 (ea : ExecArgs3) (d : ℝ × ℝ × ℝ) : ExecArgs3 :=
  { ea with
    xpoints := ⟨ea.xpoints.vals.map (· + d.1), false⟩
    ypoints := ⟨ea.ypoints.vals.map (· + d.2.1), false⟩
    zpoints := ⟨ea.zpoints.vals.map (· + d.2.2), false⟩ }

/-- The affine map `p ↦ R p + t` of the plane. -/
def affine2 (R : Matrix (Fin 2) (Fin 2) ℝ) (t : ℝ × ℝ) (p : ℝ × ℝ) : ℝ × ℝ :=
  (R 0 0 * p.1 + R 0 1 * p.2 + t.1, R 1 0 * p.1 + R 1 1 * p.2 + t.2)

/-- The affine map `p ↦ R p + t` of space. -/
def affine3 (R : Matrix (Fin 3) (Fin 3) ℝ) (t : ℝ × ℝ × ℝ) (p : ℝ × ℝ × ℝ) : ℝ × ℝ × ℝ :=
  (R 0 0 * p.1 + R 0 1 * p.2.1 + R 0 2 * p.2.2 + t.1, R 1 0 * p.1 + R 1 1 * p.2.1 + R 1 2 * p.2.2 + t.2.1,
    R 2 0 * p.1 + R 2 1 * p.2.1 + R 2 2 * p.2.2 + t.2.2)

end
end PyKrige.Spec
