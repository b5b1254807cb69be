import Verif.Lemmas.LawsUK3
import Verif.Props.C44OK3D
import Verif.Props.C44

/-! C44 for `UniversalKriging3D`; see `Props/C44.lean` for what the theorems say. -/

namespace PyKrige
noncomputable section
open Spec

/-- The constructor changes no array that existed before, and does what it does with the values of its arguments. -/
theorem C44_create_uk3d {n : ℕ} (env : Env) (h : Heap) (x y z val : Arr) (hx : x.cols = n) (bx : x.buf < h.next)
    (byy : y.buf < h.next) (bz : z.buf < h.next) (bv : val.buf < h.next) (args : UK3DRefArgs)
    (hp : ∀ b ∈ listBuffers args.paramRef, b < h.next) (hd : ∀ b ∈ driftBuffers3 args, b < h.next) :
    (∀ b < h.next, (UK3DRef.create n env x y z val args h).2.buf b = h.buf b) ∧
      (UK3DRef.create n env x y z val args h).1.map (fun o => o.deref (UK3DRef.create n env x y z val args h).2 n) =
        UK3D.create env (x.vec h n) (y.vec h n) (z.vec h n) (val.vec h n) (args.deref h) := by
  rcases (Does.createUK3 (h := h) env x y z val hx bx byy bz bv args (UK3DRefArgs.below_of hp hd)).cases with
    ⟨e, h2, r1, r2, f⟩ | ⟨o, h2, s, r1, r2, f, q1, -⟩
  · rw [r1, r2]; exact ⟨f.same, rfl⟩
  · rw [r1, r2]; exact ⟨f.same, congrArg Except.ok q1⟩

/-- A program that starts with the construction of an object gets from every call what the call would return if
arrays were values. -/
theorem C44_session_uk3d {n : ℕ} (env : Env) {h h' : Heap} {x y z val : Arr} (hx : x.cols = n) (bx : x.buf < h.next)
    (byy : y.buf < h.next) (bz : z.buf < h.next) (bv : val.buf < h.next) {args : UK3DRefArgs}
    (hp : ∀ b ∈ listBuffers args.paramRef, b < h.next) (hd : ∀ b ∈ driftBuffers3 args, b < h.next) {o : UK3DRef}
    (hc : UK3DRef.create n env x y z val args h = (.ok o, h')) (l : List (Event (uk3dClass n env)))
    (ha : (Session.start (C := uk3dClass n env) h.next args.paramRef o h').AllowsAll l) :
    ∃ s, UK3D.create env (x.vec h n) (y.vec h n) (z.vec h n) (val.vec h n) (args.deref h) = .ok s ∧
      (Session.start (C := uk3dClass n env) h.next args.paramRef o h').outcomes l =
        (UK3D.run env s ((Session.start (C := uk3dClass n env) h.next args.paramRef o h').calls l)).1 := by
  obtain ⟨b, e⟩ := uk3dLaws_built env hx bx byy bz bv hp hd hc
  exact ⟨_, e, (uk3dLaws n env).session b l ha⟩

/-- Between calls of `update_variogram_model` every result of `execute` depends only on the contents of its arguments
at the time of the call. -/
theorem C44_execute_harmless_uk3d {n : ℕ} (env : Env) {h h' : Heap} {x y z val : Arr} (hx : x.cols = n) (bx : x.buf < h.next)
    (byy : y.buf < h.next) (bz : z.buf < h.next) (bv : val.buf < h.next) {args : UK3DRefArgs}
    (hp : ∀ b ∈ listBuffers args.paramRef, b < h.next) (hd : ∀ b ∈ driftBuffers3 args, b < h.next) {o : UK3DRef}
    (hc : UK3DRef.create n env x y z val args h = (.ok o, h')) (l₀ l : List (Event (uk3dClass n env)))
    (ha : (Session.start (C := uk3dClass n env) h.next args.paramRef o h').AllowsAll l₀) (hl : ∀ e ∈ l, e.NotUpdate)
    {s s' : Session (uk3dClass n env)} (hs : (Session.start h.next args.paramRef o h').final l₀ = s)
    (ha' : s.AllowsAll l) (hs' : s.final l = s') (a b : UK3DExecRefs) (ra : s.Allows (.execute a))
    (rb : s'.Allows (.execute b)) (hab : b.deref s'.heap = a.deref s.heap) :
    s'.outcome (.execute b) = s.outcome (.execute a) :=
  (uk3dLaws n env).harmless (uk3dLaws_built env hx bx byy bz bv hp hd hc).1 l₀ l ha hl hs ha' hs' a b ra rb hab

/-- Whatever the program does not overwrite itself keeps its contents: no call, failing or not, modifies an array that
existed before the call. -/
theorem C44_memory_kept_uk3d {n : ℕ} (env : Env) {h h' : Heap} {x y z val : Arr} (hx : x.cols = n) (bx : x.buf < h.next)
    (byy : y.buf < h.next) (bz : z.buf < h.next) (bv : val.buf < h.next) {args : UK3DRefArgs}
    (hp : ∀ b ∈ listBuffers args.paramRef, b < h.next) (hd : ∀ b ∈ driftBuffers3 args, b < h.next) {o : UK3DRef}
    (hc : UK3DRef.create n env x y z val args h = (.ok o, h')) (l₀ l : List (Event (uk3dClass n env)))
    (ha : (Session.start (C := uk3dClass n env) h.next args.paramRef o h').AllowsAll l₀)
    {s : Session (uk3dClass n env)} (hs : (Session.start h.next args.paramRef o h').final l₀ = s)
    (ha' : s.AllowsAll l) (b : ℕ) (hb : b < s.heap.next) (hw : ∀ v, Event.write b v ∉ l) :
    (s.final l).heap.buf b = s.heap.buf b := by
  have hi := ((uk3dLaws n env).steps l₀ (uk3dLaws_built env hx bx byy bz bv hp hd hc).1.inv ha).1
  rw [hs] at hi
  exact (uk3dLaws n env).kept l hi ha' hb hw

/-- The arrays `execute` returns are new: none of them shares memory with anything that existed before the call, the
object included. -/
theorem C44_results_new_uk3d {n : ℕ} (env : Env) {h h' : Heap} {x y z val : Arr} (hx : x.cols = n) (bx : x.buf < h.next)
    (byy : y.buf < h.next) (bz : z.buf < h.next) (bv : val.buf < h.next) {args : UK3DRefArgs}
    (hp : ∀ b ∈ listBuffers args.paramRef, b < h.next) (hd : ∀ b ∈ driftBuffers3 args, b < h.next) {o : UK3DRef}
    (hc : UK3DRef.create n env x y z val args h = (.ok o, h')) (l : List (Event (uk3dClass n env)))
    (ha : (Session.start (C := uk3dClass n env) h.next args.paramRef o h').AllowsAll l)
    {s : Session (uk3dClass n env)} (hs : (Session.start h.next args.paramRef o h').final l = s) (a : UK3DExecRefs)
    (ra : s.Allows (.execute a)) {r : ResultRef} {h'' : Heap} (hr : s.obj.execute n a s.heap = (.ok r, h'')) :
    s.heap.next ≤ r.z.buf ∧ s.heap.next ≤ r.ss.buf ∧ ∀ m ∈ r.mask, s.heap.next ≤ m.buf :=
  (uk3dLaws n env).new_results (uk3dLaws_built env hx bx byy bz bv hp hd hc).1 l ha hs a ra hr

namespace Demo

/-- A specified drift with the values 0 and 1 at the data points. -/
def sargs3 : UK3DArgs :=
  { params := .list [1, 0], exactValues := .bool true, pseudoInv := false
    driftTerms := ["specified"], specifiedDrift := .list [[0, 1]] }

theorem suk3 : ∃ s, UK3D.create stdEnv X O O X sargs3 = .ok s := by
  obtain ⟨ev, h2⟩ := expVar_ok (fun i => adjustPoint3 (1 / 2) 0 0 {} (X i) (O i) (O i)) X 6
  obtain ⟨st, h3⟩ := stats_ok (fun i => adjustPoint3 (1 / 2) 0 0 {} (X i) (O i) (O i)) X (vario 0) false
  simp only [one_div] at h2 h3
  simp [UK3D.create, sargs3, OK3D.resolveModel, chooseFunction, variogramDict, midrange_X,
    midrange_O, makeVariogramParameterList, initializeVariogramModel, h2, h3, variogramFunctionName,
    setupSpecifiedTerm, setupSpecified, setupFunctionalTerm]

/-- The array of the drift values is also the array of the coordinates. -/
def refArgsS : UK3DRefArgs := { sargs3 with paramRef := .list (arr 2 2), specifiedRef := .list [arr 0 2] }

/-- `execute('points', [2], [0], [0], specified_drift_arrays=[[2]])`: the array `[2]` is passed twice. -/
def refCallS : UK3DExecRefs := { toExec := refCall3, spec := .list [.d1 (arr 3 1)] }

theorem mem_argsS : refArgsS.deref mem = sargs3 := by
  simp [refArgsS, UK3DRefArgs.deref, ParamRef.deref, sargs3, Arr.list, Arr.get, arr, mem, List.range_succ, listArgDeref]

theorem listsS_lt : ∀ b ∈ listBuffers refArgsS.paramRef, b < mem.next := by
  rintro b rfl; decide

theorem driftS_lt : ∀ b ∈ driftBuffers3 refArgsS, b < mem.next := by
  rintro b ⟨l, hl, a, ha, rfl⟩
  cases hl
  cases List.mem_singleton.1 ha
  decide

theorem ref_createdS : ∃ o h', UK3DRef.create 2 stdEnv (arr 0 2) (arr 1 2) (arr 1 2) (arr 0 2) refArgsS mem =
    (.ok o, h') := by
  obtain ⟨s, hs⟩ := suk3
  have hb : (arr 0 2).buf < mem.next := by decide
  have hb1 : (arr 1 2).buf < mem.next := by decide
  rcases (Does.createUK3 (h := mem) (n := 2) stdEnv (arr 0 2) (arr 1 2) (arr 1 2) (arr 0 2) rfl hb hb1 hb1 hb refArgsS
    (UK3DRefArgs.below_of listsS_lt driftS_lt)).cases with ⟨e, h2, r1, r2, f⟩ | ⟨o, h2, s', r1, r2, f, q1, -⟩
  · rw [mem_x, mem_y, mem_argsS, hs] at r2; cases r2
  · exact ⟨o, h2, r1⟩

end Demo

/-- A program as in `C44_session_uk3d`, with specified drift: it calls `execute`, overwrites the array that gave the
coordinates and the drift values, overwrites the query array, makes a new array, asks for something impossible, calls
`execute` again and updates the variogram. -/
example : (∀ b ∈ driftBuffers3 Demo.refArgsS, b < Demo.mem.next) ∧
    ∃ o h', UK3DRef.create 2 stdEnv (Demo.arr 0 2) (Demo.arr 1 2) (Demo.arr 1 2) (Demo.arr 0 2) Demo.refArgsS
      Demo.mem = (.ok o, h') ∧
    (Session.start (C := uk3dClass 2 stdEnv) Demo.mem.next Demo.refArgsS.paramRef o h').AllowsAll
      [.execute Demo.refCallS, .write 0 fun _ => 7, .write 3 fun _ => -1, .alloc fun _ => 3,
        .execute { Demo.refCallS with toExec := { Demo.refCall3 with style := "circle" } }, .execute Demo.refCallS,
        .update { variogramModel := .name "power", paramRef := .none }] := by
  obtain ⟨o, h', hc⟩ := Demo.ref_createdS
  refine ⟨Demo.driftS_lt, o, h', hc, ?_⟩
  have l3 : (3 : ℕ) < Demo.mem.next := by decide
  have l4 : (4 : ℕ) < Demo.mem.next := by decide
  have pass : ∀ (st : String) (m : Set ℕ), 3 ∈ m → 4 ∈ m →
      passedUK3 { Demo.refCallS with toExec := { Demo.refCall3 with style := st } } ⊆ m := by
    rintro st m h3 h4 b ((rfl | rfl | rfl | ⟨_, hm, -⟩) | ⟨r, hr, rfl⟩)
    · exact h3
    · exact h4
    · exact h4
    · cases hm
    · cases List.mem_singleton.1 hr
      exact h3
  refine ⟨pass _ _ l3 l4, ⟨Or.inl (show (0 : ℕ) < Demo.mem.next by decide), ?_⟩, ⟨Or.inl l3, ?_⟩,
    trivial, pass _ _ (Or.inl (Or.inl l3)) (Or.inl (Or.inl l4)),
    pass _ _ (Or.inl (Or.inl (Or.inl l3))) (Or.inl (Or.inl (Or.inl l4))), ?_, trivial⟩
  · show (0 : ℕ) ∉ ({2} : Set ℕ)
    simp
  · show (3 : ℕ) ∉ ({2} : Set ℕ)
    simp
  · show listBuffers .none ⊆ _
    exact fun b hb => hb.elim

end
end PyKrige
