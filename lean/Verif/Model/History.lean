import Verif.Model.UK3D

/-! Sequences of method calls on one kriging object.

`execute` assigns no attribute of `self` in any of the four classes (ok.py:626-1020, uk.py:861-1328,
ok3d.py:603-932, uk3d.py:688-1146 contain no assignment to an attribute or to an element of one), so a call of
`execute`, whether it returns or raises, leaves the object as it is.  What `update_variogram_model` leaves
behind, also when it raises, is the second component of `X.update`. -/

namespace PyKrige
noncomputable section

/-- A method call of the user. -/
inductive Call (U A : Type) where
  | update (u : U)
  | execute (a : A)

/-- What the user gets back from a call: the exception of `update_variogram_model`, if any, or the result or
exception of `execute`. -/
inductive Outcome where
  | update (r : Py Unit)
  | execute (r : Py ExecResult)

/-- A sequence of calls, one after the other: what each returned, and the object at the end. -/
def runCalls {σ U A : Type} (update : σ → U → Py Unit × σ) (execute : σ → A → Py ExecResult) :
    σ → List (Call U A) → List Outcome × σ
  | s, [] => ([], s)
  | s, .update u :: l =>
    let r := update s u
    let t := runCalls update execute r.2 l
    (.update r.1 :: t.1, t.2)
  | s, .execute a :: l =>
    let t := runCalls update execute s l
    (.execute (execute s a) :: t.1, t.2)

/-- Calls on an `OrdinaryKriging` object; ok.py:379-553, 760-1020 -/
def OK.run {n : ℕ} (env : Env) (s : OK n) (l : List (Call OKUpdate ExecArgs)) : List Outcome × OK n :=
  runCalls (OK.update env) (fun s a => OK.execute env s a) s l

/-- Calls on an `OrdinaryKriging3D` object; ok3d.py:368-550, 735-932 -/
def OK3D.run {n : ℕ} (env : Env) (s : OK3D n) (l : List (Call Update3D ExecArgs3)) : List Outcome × OK3D n :=
  runCalls (OK3D.update env) (fun s a => OK3D.execute env s a) s l

/-- Calls on a `UniversalKriging` object; uk.py:630-788, 1090-1328 -/
def UK.run {n : ℕ} (env : Env) (s : UK n) (l : List (Call OKUpdate UKExecArgs)) : List Outcome × UK n :=
  runCalls (UK.update env) (fun s a => UK.execute s a) s l

/-- Calls on a `UniversalKriging3D` object; uk3d.py:452-640, 877-1146 -/
def UK3D.run {n : ℕ} (env : Env) (s : UK3D n) (l : List (Call Update3D UK3DExecArgs)) : List Outcome × UK3D n :=
  runCalls (UK3D.update env) (fun s a => UK3D.execute s a) s l

end
end PyKrige
