import Verif.Spec.Setting

/-!
# Well-posed requests to `execute`
-/

namespace PyKrige.Spec
noncomputable section

/-- The arguments fit together: a known style, a mask of the grid's shape (or its transpose) for "masked", as many
x- as y-coordinates for "points". -/
def WellPosed (ea : ExecArgs) : Prop :=
  ea.style = "grid" ∨
  (ea.style = "masked" ∧ ∃ m, ea.mask = some m ∧
    ((m.rows = ea.ypoints.vals.length ∧ m.cols = ea.xpoints.vals.length) ∨
      (m.rows = ea.xpoints.vals.length ∧ m.cols = ea.ypoints.vals.length))) ∨
  (ea.style = "points" ∧ ea.xpoints.vals.length = ea.ypoints.vals.length)

/-- The same in three dimensions. -/
def WellPosed3 (ea : ExecArgs3) : Prop :=
  ea.style = "grid" ∨
  (ea.style = "masked" ∧ ∃ d0 d1 d2 get, ea.mask = some (.arr d0 d1 d2 get) ∧
    ((d0 = ea.zpoints.vals.length ∧ d1 = ea.ypoints.vals.length ∧ d2 = ea.xpoints.vals.length) ∨
      (d0 = ea.xpoints.vals.length ∧ d1 = ea.ypoints.vals.length ∧ d2 = ea.zpoints.vals.length))) ∨
  (ea.style = "points" ∧ ea.xpoints.vals.length = ea.ypoints.vals.length ∧
    ea.ypoints.vals.length = ea.zpoints.vals.length)

/-- Some coordinate array holds floating point numbers (see C41 for integer coordinates). -/
def HasFloats (ea : ExecArgs) : Prop := ¬ (ea.xpoints.isInt = true ∧ ea.ypoints.isInt = true)

def HasFloats3 (ea : ExecArgs3) : Prop :=
  ¬ (ea.xpoints.isInt = true ∧ ea.ypoints.isInt = true ∧ ea.zpoints.isInt = true)

/-- A moving window has at least two points. -/
def WindowOk (nClosest : Option ℤ) : Prop := ∀ k, nClosest = some k → 1 < k

/-- The drift terms and the constant are linearly independent on the data: `D i` lists the drift terms at datum `i`. -/
def Independent {n : ℕ} (D : Fin n → List ℝ) : Prop :=
  ∀ (a : ℕ → ℝ) (b : ℝ), (∀ i, (∑ l ∈ Finset.range (D i).length, a l * (D i).getD l 0) + b = 0) →
    (∀ i, ∀ l < (D i).length, a l = 0) ∧ b = 0

/-- An array of specified drift values fits the request: for "points" one value per point, otherwise an array of the
grid's shape or its transpose. -/
def SpecArrayFits (ea : ExecArgs) : SpecArray → Prop
  | .d1 l => ea.style = "points" ∧ l.length = ea.xpoints.vals.length
  | .d2 r c _ => ea.style ≠ "points" ∧ ((r = ea.ypoints.vals.length ∧ c = ea.xpoints.vals.length) ∨
      (r = ea.xpoints.vals.length ∧ c = ea.ypoints.vals.length))

/-- `execute` gets as many arrays of specified drift values as the constructor did, all of them fitting. -/
def SpecFits (args : UKArgs) (ea : UKExecArgs) : Prop :=
  "specified" ∈ args.driftTerms → ∃ l l₀, ea.spec = .list l ∧ args.specifiedDrift = .list l₀ ∧ l.length = l₀.length ∧
    ∀ a ∈ l, SpecArrayFits ea.toExec a

/-- The same in three dimensions. -/
def SpecArrayFits3 (ea : ExecArgs3) : SpecArray3 → Prop
  | .d1 l => ea.style = "points" ∧ l.length = ea.xpoints.vals.length
  | .d2 => False
  | .d3 d0 d1 d2 _ => ea.style ≠ "points" ∧
      ((d0 = ea.zpoints.vals.length ∧ d1 = ea.ypoints.vals.length ∧ d2 = ea.xpoints.vals.length) ∨
        (d0 = ea.xpoints.vals.length ∧ d1 = ea.ypoints.vals.length ∧ d2 = ea.zpoints.vals.length))

def SpecFits3 (args : UK3DArgs) (ea : UK3DExecArgs) : Prop :=
  "specified" ∈ args.driftTerms → ∃ l l₀, ea.spec = .list l ∧ args.specifiedDrift = .list l₀ ∧ l.length = l₀.length ∧
    ∀ a ∈ l, SpecArrayFits3 ea.toExec a

end
end PyKrige.Spec
