import Verif.Spec.Memory
import Verif.Model.Threads

/-! Threads that construct kriging objects and call `execute`. -/

namespace PyKrige.Spec
noncomputable section

/-- The objects of a class that a program can have: returned by the constructor (`new o k`: with `k` buffers in use
afterwards), or such an object after calls of `update_variogram_model`. -/
inductive Had (C : RefClass) (new : C.Obj → ℕ → Prop) : C.Obj → ℕ → Prop
  | new {o : C.Obj} {k : ℕ} (h : new o k) : Had C new o k
  | update {o : C.Obj} {k : ℕ} {h : Heap} {u : C.Upd} (ho : Had C new o k) (hk : k ≤ h.next)
      (hp : ∀ b ∈ listBuffers (C.params u), b < h.next) :
      Had C new (C.update o u h).1.2 (C.update o u h).2.next

/-- `OrdinaryKriging(x, y, z, ...)` has returned `o`, and `k` buffers are in use. -/
def OKNew (n : ℕ) (env : Env) (o : OKRef) (k : ℕ) : Prop :=
  ∃ (h h' : Heap) (x y z : Arr) (args : OKRefArgs), x.cols = n ∧ x.buf < h.next ∧ y.buf < h.next ∧ z.buf < h.next ∧
    (∀ b ∈ listBuffers args.paramRef, b < h.next) ∧ OKRef.create n env x y z args h = (.ok o, h') ∧ k = h'.next

/-- `OrdinaryKriging3D(x, y, z, val, ...)` has returned `o`, and `k` buffers are in use. -/
def OK3DNew (n : ℕ) (env : Env) (o : OK3DRef) (k : ℕ) : Prop :=
  ∃ (h h' : Heap) (x y z val : Arr) (args : OK3DRefArgs), x.cols = n ∧ x.buf < h.next ∧ y.buf < h.next ∧
    z.buf < h.next ∧ val.buf < h.next ∧ (∀ b ∈ listBuffers args.paramRef, b < h.next) ∧
    OK3DRef.create n env x y z val args h = (.ok o, h') ∧ k = h'.next

/-- `UniversalKriging(x, y, z, ...)` has returned `o`, and `k` buffers are in use. -/
def UKNew (n : ℕ) (env : Env) (o : UKRef) (k : ℕ) : Prop :=
  ∃ (h h' : Heap) (x y z : Arr) (args : UKRefArgs), x.cols = n ∧ x.buf < h.next ∧ y.buf < h.next ∧ z.buf < h.next ∧
    (∀ b ∈ listBuffers args.paramRef, b < h.next) ∧ (∀ b ∈ driftBuffers args, b < h.next) ∧
    UKRef.create n env x y z args h = (.ok o, h') ∧ k = h'.next

/-- `UniversalKriging3D(x, y, z, val, ...)` has returned `o`, and `k` buffers are in use. -/
def UK3DNew (n : ℕ) (env : Env) (o : UK3DRef) (k : ℕ) : Prop :=
  ∃ (h h' : Heap) (x y z val : Arr) (args : UK3DRefArgs), x.cols = n ∧ x.buf < h.next ∧ y.buf < h.next ∧
    z.buf < h.next ∧ val.buf < h.next ∧ (∀ b ∈ listBuffers args.paramRef, b < h.next) ∧
    (∀ b ∈ driftBuffers3 args, b < h.next) ∧ UK3DRef.create n env x y z val args h = (.ok o, h') ∧ k = h'.next

/-- One piece of work of a thread: a call `o.execute(a)` of an object that exists, or the construction of an object from
arrays that exist, followed by `execute(a)`. -/
inductive Job
  | ok (n : ℕ) (env : Env) (o : OKRef) (a : ExecRefs)
  | ok3d (n : ℕ) (env : Env) (o : OK3DRef) (a : ExecRefs3)
  | uk (n : ℕ) (env : Env) (o : UKRef) (a : UKExecRefs)
  | uk3d (n : ℕ) (env : Env) (o : UK3DRef) (a : UK3DExecRefs)
  /-- `OrdinaryKriging(x, y, z, ...).execute(...)` -/
  | newOk (n : ℕ) (env : Env) (x y z : Arr) (args : OKRefArgs) (a : ExecRefs)
  /-- `OrdinaryKriging3D(x, y, z, val, ...).execute(...)` -/
  | newOk3d (n : ℕ) (env : Env) (x y z val : Arr) (args : OK3DRefArgs) (a : ExecRefs3)
  /-- `UniversalKriging(x, y, z, ...).execute(...)` -/
  | newUk (n : ℕ) (env : Env) (x y z : Arr) (args : UKRefArgs) (a : UKExecRefs)
  /-- `UniversalKriging3D(x, y, z, val, ...).execute(...)` -/
  | newUk3d (n : ℕ) (env : Env) (x y z val : Arr) (args : UK3DRefArgs) (a : UK3DExecRefs)

/-- The work as a program. -/
def Job.prog : Job → Thr ResultRef
  | .ok n env o a => o.executeT n env a
  | .ok3d n env o a => o.executeT n env a
  | .uk n _ o a => o.executeT n a
  | .uk3d n _ o a => o.executeT n a
  | .newOk n env x y z args a => do
    let o ← OKRef.createT n env x y z args
    o.executeT n env a
  | .newOk3d n env x y z val args a => do
    let o ← OK3DRef.createT n env x y z val args
    o.executeT n env a
  | .newUk n env x y z args a => do
    let o ← UKRef.createT n env x y z args
    o.executeT n a
  | .newUk3d n env x y z val args a => do
    let o ← UK3DRef.createT n env x y z val args
    o.executeT n a

/-- What the calls return on values: attributes of the object, data arrays and arguments as they are in memory `h`. -/
def Job.values (h : Heap) : Job → Py ExecResult
  | .ok n env o a => OK.execute env (o.deref h n) (a.deref h)
  | .ok3d n env o a => OK3D.execute env (o.deref h n) (a.deref h)
  | .uk n _ o a => UK.execute (o.deref h n) (a.deref h)
  | .uk3d n _ o a => UK3D.execute (o.deref h n) (a.deref h)
  | .newOk n env x y z args a => do
    let s ← OK.create env (x.vec h n) (y.vec h n) (z.vec h n) (args.deref h)
    OK.execute env s (a.deref h)
  | .newOk3d n env x y z val args a => do
    let s ← OK3D.create env (x.vec h n) (y.vec h n) (z.vec h n) (val.vec h n) (args.deref h)
    OK3D.execute env s (a.deref h)
  | .newUk n env x y z args a => do
    let s ← UK.create env (x.vec h n) (y.vec h n) (z.vec h n) (args.deref h)
    UK.execute s (a.deref h)
  | .newUk3d n env x y z val args a => do
    let s ← UK3D.create env (x.vec h n) (y.vec h n) (z.vec h n) (val.vec h n) (args.deref h)
    UK3D.execute s (a.deref h)

/-- The object and the arrays that are passed exist when `k` buffers are in use; data arrays have `n` elements. -/
def Job.Possible (k : ℕ) : Job → Prop
  | .ok n env o a => (∃ k' ≤ k, Had (okClass n env) (OKNew n env) o k') ∧ ∀ b ∈ passed2 a, b < k
  | .ok3d n env o a => (∃ k' ≤ k, Had (ok3dClass n env) (OK3DNew n env) o k') ∧ ∀ b ∈ passed3 a, b < k
  | .uk n env o a => (∃ k' ≤ k, Had (ukClass n env) (UKNew n env) o k') ∧ ∀ b ∈ passedUK a, b < k
  | .uk3d n env o a => (∃ k' ≤ k, Had (uk3dClass n env) (UK3DNew n env) o k') ∧ ∀ b ∈ passedUK3 a, b < k
  | .newOk n _ x y z args a => x.cols = n ∧ x.buf < k ∧ y.buf < k ∧ z.buf < k ∧
    (∀ b ∈ listBuffers args.paramRef, b < k) ∧ ∀ b ∈ passed2 a, b < k
  | .newOk3d n _ x y z val args a => x.cols = n ∧ x.buf < k ∧ y.buf < k ∧ z.buf < k ∧ val.buf < k ∧
    (∀ b ∈ listBuffers args.paramRef, b < k) ∧ ∀ b ∈ passed3 a, b < k
  | .newUk n _ x y z args a => x.cols = n ∧ x.buf < k ∧ y.buf < k ∧ z.buf < k ∧
    (∀ b ∈ listBuffers args.paramRef, b < k) ∧ (∀ b ∈ driftBuffers args, b < k) ∧ ∀ b ∈ passedUK a, b < k
  | .newUk3d n _ x y z val args a => x.cols = n ∧ x.buf < k ∧ y.buf < k ∧ z.buf < k ∧ val.buf < k ∧
    (∀ b ∈ listBuffers args.paramRef, b < k) ∧ (∀ b ∈ driftBuffers3 args, b < k) ∧ ∀ b ∈ passedUK3 a, b < k

/-- The program of a thread: call after call, keeping every result or exception. -/
def worker : List Job → Thr (List (Py ResultRef))
  | [] => pure []
  | j :: l => do
    let r ← j.prog.attempt
    let rs ← worker l
    return r :: rs

end
end PyKrige.Spec
