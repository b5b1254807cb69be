import Verif.Model.Heap3
import Verif.Model.HeapUK
import Verif.Model.HeapUK3

/-! What a program that uses a kriging object can do to memory and to the object. -/

namespace PyKrige.Spec
noncomputable section

/-- A class of kriging objects whose methods work on memory, and how to read their arguments as values. -/
structure RefClass where
  /-- the objects, with references to their arrays -/
  Obj : Type
  /-- arguments of `execute`, arrays by reference -/
  Exec : Type
  /-- arguments of `update_variogram_model` -/
  Upd : Type
  ExecVal : Type
  UpdVal : Type
  execute : Obj → Exec → H ResultRef
  /-- what it raises, if anything, and the object and the memory afterwards -/
  update : Obj → Upd → Heap → (Py Unit × Obj) × Heap
  /-- the buffers of the arrays that are passed to `execute` -/
  passed : Exec → Set ℕ
  /-- `variogram_parameters` -/
  params : Upd → ParamRef
  execVal : Heap → Exec → ExecVal
  updVal : Heap → Upd → UpdVal

/-- One step of the user's program. -/
inductive Event (C : RefClass)
  /-- make a new array -/
  | alloc (v : ℕ × ℕ → ℝ)
  /-- overwrite a buffer in any way -/
  | write (b : ℕ) (v : ℕ × ℕ → ℝ)
  /-- call `execute` -/
  | execute (a : C.Exec)
  /-- call `update_variogram_model` -/
  | update (u : C.Upd)

/-- The buffer of the list passed as `variogram_parameters`, if a list is passed. -/
def listBuffers : ParamRef → Set ℕ
  | .list a => {a.buf}
  | _ => ∅

/-- A moment in the life of the user's program: the object, the memory, the buffers the program holds references to,
and the buffers of the lists it has passed as `variogram_parameters`. -/
structure Session (C : RefClass) where
  obj : C.Obj
  heap : Heap
  mine : Set ℕ
  lists : Set ℕ

/-- The buffers of the arrays `execute` returned. -/
def resultBuffers : Py ResultRef → Set ℕ
  | .ok r => {b | b = r.z.buf ∨ b = r.ss.buf ∨ ∃ m ∈ r.mask, b = m.buf}
  | .error _ => ∅

variable {C : RefClass}

/-- The situation after a step. -/
def Session.after (s : Session C) : Event C → Session C
  | .alloc v =>
    { s with heap := { next := s.heap.next + 1, buf := Function.update s.heap.buf s.heap.next v }
             mine := s.mine ∪ {s.heap.next} }
  | .write b v => { s with heap := { s.heap with buf := Function.update s.heap.buf b v } }
  | .execute a =>
    let r := C.execute s.obj a s.heap
    { s with heap := r.2, mine := s.mine ∪ resultBuffers r.1 }
  | .update u =>
    let r := C.update s.obj u s.heap
    { s with obj := r.1.2, heap := r.2, lists := s.lists ∪ listBuffers (C.params u) }

/-- What the program gets from a step: for `execute` the contents of the returned arrays at that moment. -/
def Session.outcome (s : Session C) : Event C → List Outcome
  | .alloc _ => []
  | .write _ _ => []
  | .execute a =>
    let r := C.execute s.obj a s.heap
    [.execute (r.1.map fun x => x.deref r.2)]
  | .update u => [.update (C.update s.obj u s.heap).1.1]

/-- The step as a call with values: the contents of the arguments at the time of the call. -/
def Session.call (s : Session C) : Event C → List (Call C.UpdVal C.ExecVal)
  | .alloc _ => []
  | .write _ _ => []
  | .execute a => [.execute (C.execVal s.heap a)]
  | .update u => [.update (C.updVal s.heap u)]

/-- What the program is allowed to do: pass references it has; overwrite anything it has a reference to, except
lists that it passed as `variogram_parameters`. -/
def Session.Allows (s : Session C) : Event C → Prop
  | .alloc _ => True
  | .write b _ => b ∈ s.mine ∧ b ∉ s.lists
  | .execute a => C.passed a ⊆ s.mine
  | .update u => listBuffers (C.params u) ⊆ s.mine

/-- The situation after some steps. -/
def Session.final : Session C → List (Event C) → Session C
  | s, [] => s
  | s, e :: l => Session.final (s.after e) l

/-- What the program gets from some steps. -/
def Session.outcomes : Session C → List (Event C) → List Outcome
  | _, [] => []
  | s, e :: l => s.outcome e ++ Session.outcomes (s.after e) l

/-- The calls with values made in some steps. -/
def Session.calls : Session C → List (Event C) → List (Call C.UpdVal C.ExecVal)
  | _, [] => []
  | s, e :: l => s.call e ++ Session.calls (s.after e) l

/-- All steps are allowed. -/
def Session.AllowsAll : Session C → List (Event C) → Prop
  | _, [] => True
  | s, e :: l => s.Allows e ∧ Session.AllowsAll (s.after e) l

/-- Right after the constructor has returned `o` with memory `h'`: the program has references to whatever existed
before, whose buffers are those below `k`. -/
def Session.start (k : ℕ) (p : ParamRef) (o : C.Obj) (h' : Heap) : Session C :=
  { obj := o, heap := h', mine := {b | b < k}, lists := listBuffers p }

/-- Not a call of `update_variogram_model`. -/
def Event.NotUpdate : Event C → Prop
  | .update _ => False
  | _ => True

/-- The buffers of the arrays passed to `execute` of the 2D classes. -/
def passed2 (a : ExecRefs) : Set ℕ := {b | b = a.xpoints.buf ∨ b = a.ypoints.buf ∨ ∃ m ∈ a.mask, b = m.buf}

/-- `OrdinaryKriging` for `n` data points. -/
abbrev okClass (n : ℕ) (env : Env) : RefClass where
  Obj := OKRef
  Exec := ExecRefs
  Upd := OKRefUpdate
  ExecVal := ExecArgs
  UpdVal := OKUpdate
  execute := OKRef.execute n env
  update := OKRef.update n env
  passed := passed2
  params := OKRefUpdate.paramRef
  execVal := ExecRefs.deref
  updVal := OKRefUpdate.deref

/-- The buffers of the arrays passed to `execute` of the 3D classes. -/
def passed3 (a : ExecRefs3) : Set ℕ :=
  {b | b = a.xpoints.buf ∨ b = a.ypoints.buf ∨ b = a.zpoints.buf ∨ ∃ m ∈ a.mask, b = m.buf}

/-- `OrdinaryKriging3D` for `n` data points. -/
abbrev ok3dClass (n : ℕ) (env : Env) : RefClass where
  Obj := OK3DRef
  Exec := ExecRefs3
  Upd := Update3DRef
  ExecVal := ExecArgs3
  UpdVal := Update3D
  execute := OK3DRef.execute n env
  update := OK3DRef.update n env
  passed := passed3
  params := Update3DRef.paramRef
  execVal := ExecRefs3.deref
  updVal := Update3DRef.deref

/-- The buffers of the arrays passed as `specified_drift_arrays`. -/
def specBuffers : SpecRefArg → Set ℕ
  | .list l => {b | ∃ r ∈ l, b = r.buf}
  | _ => ∅

/-- The buffers of the arrays passed to `execute` of `UniversalKriging`. -/
def passedUK (a : UKExecRefs) : Set ℕ := passed2 a.toExec ∪ specBuffers a.spec

/-- The buffers of the arrays that describe the drift in the arguments of the constructor. -/
def driftBuffers (args : UKRefArgs) : Set ℕ :=
  {b | (∃ a ∈ args.pointDriftRef, b = a.buf) ∨ (∃ a ∈ args.externalRef, b = a.buf) ∨
    (∃ a ∈ args.externalXRef, b = a.buf) ∨ (∃ a ∈ args.externalYRef, b = a.buf) ∨
    ∃ l, args.specifiedRef = .list l ∧ ∃ a ∈ l, b = a.buf}

/-- `UniversalKriging` for `n` data points. -/
abbrev ukClass (n : ℕ) (env : Env) : RefClass where
  Obj := UKRef
  Exec := UKExecRefs
  Upd := OKRefUpdate
  ExecVal := UKExecArgs
  UpdVal := OKUpdate
  execute := UKRef.execute n
  update := UKRef.update n env
  passed := passedUK
  params := OKRefUpdate.paramRef
  execVal := UKExecRefs.deref
  updVal := OKRefUpdate.deref

/-- The buffers of the arrays passed as `specified_drift_arrays`. -/
def specBuffers3 : SpecRefArg3 → Set ℕ
  | .list l => {b | ∃ r ∈ l, b = r.buf}
  | _ => ∅

/-- The buffers of the arrays passed to `execute` of `UniversalKriging3D`. -/
def passedUK3 (a : UK3DExecRefs) : Set ℕ := passed3 a.toExec ∪ specBuffers3 a.spec

/-- The buffers of the arrays that describe the drift in the arguments of the constructor. -/
def driftBuffers3 (args : UK3DRefArgs) : Set ℕ :=
  {b | ∃ l, args.specifiedRef = .list l ∧ ∃ a ∈ l, b = a.buf}

/-- `UniversalKriging3D` for `n` data points. -/
abbrev uk3dClass (n : ℕ) (env : Env) : RefClass where
  Obj := UK3DRef
  Exec := UK3DExecRefs
  Upd := Update3DRef
  ExecVal := UK3DExecArgs
  UpdVal := Update3D
  execute := UK3DRef.execute n
  update := UK3DRef.update n env
  passed := passedUK3
  params := Update3DRef.paramRef
  execVal := UK3DExecRefs.deref
  updVal := Update3DRef.deref

end
end PyKrige.Spec
