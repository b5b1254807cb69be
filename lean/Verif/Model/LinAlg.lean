import Mathlib.LinearAlgebra.Matrix.NonsingularInverse
import Mathlib.Data.Real.Basic
import Verif.Py

/-!
Models of the external linear algebra used by PyKrige, in exact arithmetic.  These are definitions
(no axioms): they fix what `scipy.linalg` is *assumed* to compute.
-/

namespace PyKrige
noncomputable section
open Matrix

variable {ι : Type} [Fintype ι] [DecidableEq ι]

open Classical in
/-- `scipy.linalg.inv(a)` (ok.py:662, 696; ok3d.py:636, 671; uk.py:935, 1027; uk3d.py; cok.pyx:54):
the inverse, `LinAlgError` iff singular. -/
def scipyInv (a : Matrix ι ι ℝ) : Py (Matrix ι ι ℝ) :=
  if a.det = 0 then .error .linAlgError else .ok a⁻¹

open Classical in
/-- `scipy.linalg.solve(a, b)` / `np.linalg.solve(a, b)` (ok.py:753, ok3d.py:728, core.py:752), `b` a
single column: the solution, `LinAlgError` iff singular. -/
def scipySolve (a : Matrix ι ι ℝ) (b : ι → ℝ) : Py (ι → ℝ) :=
  if a.det = 0 then .error .linAlgError else .ok (a⁻¹ *ᵥ b)

open Classical in
/-- LAPACK `dgesv` as used in cok.pyx:163-177: the solution, `ValueError('Singular matrix')` when the
factorisation meets a zero pivot (`info > 0`), which in exact arithmetic means singular. -/
def dgesv (a : Matrix ι ι ℝ) (b : ι → ℝ) : Py (ι → ℝ) :=
  if a.det = 0 then .error .valueError else .ok (a⁻¹ *ᵥ b)

/-- The four Penrose conditions characterising the pseudo-inverse. -/
structure IsPinv (a p : Matrix ι ι ℝ) : Prop where
  apa : a * p * a = a
  pap : p * a * p = p
  ap_symm : (a * p)ᵀ = a * p
  pa_symm : (p * a)ᵀ = p * a

open Classical in
/-- `scipy.linalg.pinv(a)`: the Moore-Penrose inverse (exact arithmetic: the rank is decided
exactly).  The definition picks a matrix with the four Penrose properties; existence and uniqueness
are proved in `Verif/Lemmas/Pinv.lean`. -/
def scipyPinv (a : Matrix ι ι ℝ) : Matrix ι ι ℝ :=
  if h : ∃ p, IsPinv a p then Classical.choose h else 0

/-- `scipy.linalg.pinvh(a)`: reads the lower triangle only (`lower=True` is scipy's default) and
assumes symmetry. -/
def scipyPinvh {N : ℕ} (a : Matrix (Fin N) (Fin N) ℝ) : Matrix (Fin N) (Fin N) ℝ :=
  scipyPinv (Matrix.of fun i j => if j ≤ i then a i j else a j i)

/-- `P_INV = {"pinv": spl.pinv, "pinvh": spl.pinvh}`; core.py:33 -/
def P_INV {N : ℕ} (name : String) : Option (Matrix (Fin N) (Fin N) ℝ → Matrix (Fin N) (Fin N) ℝ) :=
  if name = "pinv" then some scipyPinv
  else if name = "pinvh" then some scipyPinvh
  else none

end
end PyKrige
