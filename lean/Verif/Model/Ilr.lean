import Mathlib.Analysis.SpecialFunctions.Log.Basic
import Mathlib.Analysis.SpecialFunctions.Sqrt
import Mathlib.Algebra.BigOperators.Fin
import Mathlib.Analysis.SpecialFunctions.Pow.Real

/-! Compositional data (ck.py:215-291). A composition has `m + 1` parts, its transform `m` coordinates. -/

namespace PyKrige
noncomputable section

/-- `scipy.linalg.helmert(m + 1)`, by its documentation: the Helmert matrix without its first row. -/
def helmert (m : ℕ) (r : Fin m) (j : Fin (m + 1)) : ℝ :=
  (if j.val < r.val + 1 then 1 else if j.val = r.val + 1 then -((r.val : ℝ) + 1) else 0) /
    √(((r.val : ℝ) + 1) * ((r.val : ℝ) + 2))

/-- `np.finfo(float).eps`. -/
def machineEps : ℝ := 2 ^ (-52 : ℤ)

/-- ck.py:215-240, `closure`. -/
def closure {N D : ℕ} (data : Fin N → Fin D → ℝ) (k : ℝ) (i : Fin N) (j : Fin D) : ℝ := k * data i j / ∑ l, data i l

/-- ck.py:243-266, `ilr_transformation`. -/
def ilrTransformation {N m : ℕ} (data : Fin N → Fin (m + 1) → ℝ) (i : Fin N) (r : Fin m) : ℝ :=
  ∑ j, Real.log (max (data i j) machineEps) * -helmert m r j

/-- ck.py:269-291, `inverse_ilr_transformation`. -/
def inverseIlr {N m : ℕ} (data : Fin N → Fin m → ℝ) : Fin N → Fin (m + 1) → ℝ :=
  closure (fun i j => Real.exp (∑ r, data i r * -helmert m r j)) 1

end
end PyKrige
