import Verif.Spec.Inexact
import Verif.Model.InexactOK3D
import Verif.Model.InexactUK
import Verif.Model.InexactUK3D
import Verif.Lemmas.Py

/-! With exact routines nothing changes. -/

namespace PyKrige
noncomputable section
open Matrix Spec

theorem exact_invertPython {N : ℕ} (p : Bool) (t : String) (A : Matrix (Fin N) (Fin N) ℝ) :
    exactArith.invertPython p t A = invertPython p t A := by
  unfold Arith.invertPython invertPython P_INV
  cases p
  · rfl
  · simp only [if_true]
    split
    · rfl
    · split <;> rfl

theorem exact_invertC {N : ℕ} (p : Bool) (t : String) (A : Matrix (Fin N) (Fin N) ℝ) :
    exactArith.invertC p t A = invertC p t A := rfl

theorem exact_mulVec {k : ℕ} (A : Matrix (Fin k) (Fin k) ℝ) (b : Fin k → ℝ) : exactArith.mulVec A b = A *ᵥ b := rfl

theorem OK.executeWith_exact {n : ℕ} (env : Env) (s : OK n) (args : ExecArgs) :
    s.executeWith exactArith env args = s.execute env args := by
  unfold OK.executeWith OK.execute OK.globalKrigeWith OK.globalKrige OK.execVectorWith OK.execVector OK.execLoopWith OK.execLoop
  simp only [exact_invertPython]
  rfl

theorem OK3D.executeWith_exact {n : ℕ} (env : Env) (s : OK3D n) (args : ExecArgs3) :
    s.executeWith exactArith env args = s.execute env args := by
  unfold OK3D.executeWith OK3D.execute OK3D.globalKrigeWith OK3D.globalKrige OK3D.execVectorWith OK3D.execVector
    OK3D.execLoopWith OK3D.execLoop
  simp only [exact_invertPython]
  rfl

theorem UK.executeWith_exact {n : ℕ} (s : UK n) (args : UKExecArgs) : s.executeWith exactArith args = s.execute args := by
  unfold UK.executeWith UK.execute UK.executeWWith UK.executeW UK.execVectorWith UK.execVector UK.execLoopWith UK.execLoop
  simp only [exact_invertPython]
  rfl

theorem UK3D.executeWith_exact {n : ℕ} (s : UK3D n) (args : UK3DExecArgs) :
    s.executeWith exactArith args = s.execute args := by
  unfold UK3D.executeWith UK3D.execute UK3D.executeWWith UK3D.executeW UK3D.execVectorWith UK3D.execVector UK3D.execLoopWith
    UK3D.execLoop
  simp only [exact_invertPython]
  rfl

end
end PyKrige
