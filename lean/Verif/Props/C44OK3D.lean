import Verif.Lemmas.LawsOK3D
import Verif.Props.C44

/-! C44 for `OrdinaryKriging3D`; see `Props/C44.lean` for what the theorems say. -/

namespace PyKrige
noncomputable section
open Spec

/-- The constructor changes no array that existed before, and does what it does with the values of its arguments. -/
theorem C44_create_3d {n : ℕ} (env : Env) (h : Heap) (x y z val : Arr) (hx : x.cols = n) (bx : x.buf < h.next)
    (byy : y.buf < h.next) (bz : z.buf < h.next) (bv : val.buf < h.next) (args : OK3DRefArgs)
    (hp : ∀ b ∈ listBuffers args.paramRef, b < h.next) :
    (∀ b < h.next, (OK3DRef.create n env x y z val args h).2.buf b = h.buf b) ∧
      (OK3DRef.create n env x y z val args h).1.map (fun o => o.deref (OK3DRef.create n env x y z val args h).2 n) =
        OK3D.create env (x.vec h n) (y.vec h n) (z.vec h n) (val.vec h n) (args.deref h) := by
  rcases (Does.create3 (h := h) env x y z val hx bx byy bz bv args (ParamRef.below_of hp)).cases with
    ⟨e, h2, r1, r2, f⟩ | ⟨o, h2, s, r1, r2, f, q1, -⟩
  · rw [r1, r2]; exact ⟨f.same, rfl⟩
  · rw [r1, r2]; exact ⟨f.same, congrArg Except.ok q1⟩

/-- A program that starts with the construction of an object gets from every call what the call would return if
arrays were values. -/
theorem C44_session_3d {n : ℕ} (env : Env) {h h' : Heap} {x y z val : Arr} (hx : x.cols = n) (bx : x.buf < h.next)
    (byy : y.buf < h.next) (bz : z.buf < h.next) (bv : val.buf < h.next) {args : OK3DRefArgs}
    (hp : ∀ b ∈ listBuffers args.paramRef, b < h.next) {o : OK3DRef}
    (hc : OK3DRef.create n env x y z val args h = (.ok o, h')) (l : List (Event (ok3dClass n env)))
    (ha : (Session.start (C := ok3dClass n env) h.next args.paramRef o h').AllowsAll l) :
    ∃ s, OK3D.create env (x.vec h n) (y.vec h n) (z.vec h n) (val.vec h n) (args.deref h) = .ok s ∧
      (Session.start (C := ok3dClass n env) h.next args.paramRef o h').outcomes l =
        (OK3D.run env s ((Session.start (C := ok3dClass n env) h.next args.paramRef o h').calls l)).1 := by
  obtain ⟨b, e⟩ := ok3dLaws_built env hx bx byy bz bv hp hc
  exact ⟨_, e, (ok3dLaws n env).session b l ha⟩

/-- Between calls of `update_variogram_model` every result of `execute` depends only on the contents of its arguments
at the time of the call. -/
theorem C44_execute_harmless_3d {n : ℕ} (env : Env) {h h' : Heap} {x y z val : Arr} (hx : x.cols = n) (bx : x.buf < h.next)
    (byy : y.buf < h.next) (bz : z.buf < h.next) (bv : val.buf < h.next) {args : OK3DRefArgs}
    (hp : ∀ b ∈ listBuffers args.paramRef, b < h.next) {o : OK3DRef}
    (hc : OK3DRef.create n env x y z val args h = (.ok o, h')) (l₀ l : List (Event (ok3dClass n env)))
    (ha : (Session.start (C := ok3dClass n env) h.next args.paramRef o h').AllowsAll l₀) (hl : ∀ e ∈ l, e.NotUpdate)
    {s s' : Session (ok3dClass n env)} (hs : (Session.start h.next args.paramRef o h').final l₀ = s)
    (ha' : s.AllowsAll l) (hs' : s.final l = s') (a b : ExecRefs3) (ra : s.Allows (.execute a))
    (rb : s'.Allows (.execute b)) (hab : b.deref s'.heap = a.deref s.heap) :
    s'.outcome (.execute b) = s.outcome (.execute a) :=
  (ok3dLaws n env).harmless (ok3dLaws_built env hx bx byy bz bv hp hc).1 l₀ l ha hl hs ha' hs' a b ra rb hab

/-- Whatever the program does not overwrite itself keeps its contents: no call, failing or not, modifies an array that
existed before the call. -/
theorem C44_memory_kept_3d {n : ℕ} (env : Env) {h h' : Heap} {x y z val : Arr} (hx : x.cols = n) (bx : x.buf < h.next)
    (byy : y.buf < h.next) (bz : z.buf < h.next) (bv : val.buf < h.next) {args : OK3DRefArgs}
    (hp : ∀ b ∈ listBuffers args.paramRef, b < h.next) {o : OK3DRef}
    (hc : OK3DRef.create n env x y z val args h = (.ok o, h')) (l₀ l : List (Event (ok3dClass n env)))
    (ha : (Session.start (C := ok3dClass n env) h.next args.paramRef o h').AllowsAll l₀)
    {s : Session (ok3dClass n env)} (hs : (Session.start h.next args.paramRef o h').final l₀ = s)
    (ha' : s.AllowsAll l) (b : ℕ) (hb : b < s.heap.next) (hw : ∀ v, Event.write b v ∉ l) :
    (s.final l).heap.buf b = s.heap.buf b := by
  have hi := ((ok3dLaws n env).steps l₀ (ok3dLaws_built env hx bx byy bz bv hp hc).1.inv ha).1
  rw [hs] at hi
  exact (ok3dLaws n env).kept l hi ha' hb hw

/-- The arrays `execute` returns are new: none of them shares memory with anything that existed before the call, the
object included. -/
theorem C44_results_new_3d {n : ℕ} (env : Env) {h h' : Heap} {x y z val : Arr} (hx : x.cols = n) (bx : x.buf < h.next)
    (byy : y.buf < h.next) (bz : z.buf < h.next) (bv : val.buf < h.next) {args : OK3DRefArgs}
    (hp : ∀ b ∈ listBuffers args.paramRef, b < h.next) {o : OK3DRef}
    (hc : OK3DRef.create n env x y z val args h = (.ok o, h')) (l : List (Event (ok3dClass n env)))
    (ha : (Session.start (C := ok3dClass n env) h.next args.paramRef o h').AllowsAll l)
    {s : Session (ok3dClass n env)} (hs : (Session.start h.next args.paramRef o h').final l = s) (a : ExecRefs3)
    (ra : s.Allows (.execute a)) {r : ResultRef} {h'' : Heap} (hr : s.obj.execute n env a s.heap = (.ok r, h'')) :
    s.heap.next ≤ r.z.buf ∧ s.heap.next ≤ r.ss.buf ∧ ∀ m ∈ r.mask, s.heap.next ≤ m.buf :=
  (ok3dLaws n env).new_results (ok3dLaws_built env hx bx byy bz bv hp hc).1 l ha hs a ra hr

namespace Demo

def refArgs3 : OK3DRefArgs := { (args3 0 true false) with paramRef := .list (arr 2 2) }

/-- `execute('points', [2], [0], [0])` -/
def refCall3 : ExecRefs3 := { style := "points", xpoints := arr 3 1, ypoints := arr 4 1, zpoints := arr 4 1 }

theorem mem_args3 : refArgs3.deref mem = args3 0 true false := by
  simp [refArgs3, OK3DRefArgs.deref, ParamRef.deref, args3, Arr.list, Arr.get, arr, mem, List.range_succ]

theorem ref_created3 : ∃ o h', OK3DRef.create 2 stdEnv (arr 0 2) (arr 1 2) (arr 1 2) (arr 0 2) refArgs3 mem =
    (.ok o, h') := by
  obtain ⟨s, hs, -⟩ := ok3 X 0 true false
  have hp : ∀ b ∈ listBuffers refArgs3.paramRef, b < mem.next := by
    rintro b rfl; decide
  have hb : (arr 0 2).buf < mem.next := by decide
  have hb1 : (arr 1 2).buf < mem.next := by decide
  rcases (Does.create3 (h := mem) (n := 2) stdEnv (arr 0 2) (arr 1 2) (arr 1 2) (arr 0 2) rfl hb hb1 hb1 hb refArgs3
    (ParamRef.below_of hp)).cases with ⟨e, h2, r1, r2, f⟩ | ⟨o, h2, s', r1, r2, f, q1, -⟩
  · rw [mem_x, mem_y, mem_args3, hs] at r2; cases r2
  · exact ⟨o, h2, r1⟩

end Demo

/-- A program as in `C44_session_3d`: it calls `execute`, overwrites the data arrays and a query array, makes a
new array, asks for something impossible, calls `execute` again and updates the variogram. -/
example : ∃ o h', OK3DRef.create 2 stdEnv (Demo.arr 0 2) (Demo.arr 1 2) (Demo.arr 1 2) (Demo.arr 0 2) Demo.refArgs3
      Demo.mem = (.ok o, h') ∧
    (Session.start (C := ok3dClass 2 stdEnv) Demo.mem.next Demo.refArgs3.paramRef o h').AllowsAll
      [.execute Demo.refCall3, .write 0 fun _ => 7, .write 3 fun _ => -1, .alloc fun _ => 3,
        .execute { Demo.refCall3 with style := "circle" }, .execute Demo.refCall3,
        .update { variogramModel := .name "power", paramRef := .none }] := by
  obtain ⟨o, h', hc⟩ := Demo.ref_created3
  refine ⟨o, h', hc, ?_⟩
  have l3 : (3 : ℕ) < Demo.mem.next := by decide
  have l4 : (4 : ℕ) < Demo.mem.next := by decide
  have pass : ∀ (st : String) (m : Set ℕ), 3 ∈ m → 4 ∈ m → passed3 { Demo.refCall3 with style := st } ⊆ m := by
    rintro st m h3 h4 b (rfl | rfl | rfl | ⟨_, hm, -⟩)
    · exact h3
    · exact h4
    · exact h4
    · cases hm
  refine ⟨pass _ _ l3 l4, ⟨Or.inl (show (0 : ℕ) < Demo.mem.next by decide), ?_⟩, ⟨Or.inl l3, ?_⟩,
    trivial, pass _ _ (Or.inl (Or.inl l3)) (Or.inl (Or.inl l4)),
    pass _ _ (Or.inl (Or.inl (Or.inl l3))) (Or.inl (Or.inl (Or.inl l4))), ?_, trivial⟩
  · show (0 : ℕ) ∉ ({2} : Set ℕ)
    simp
  · show (3 : ℕ) ∉ ({2} : Set ℕ)
    simp
  · show listBuffers .none ⊆ _
    exact fun b hb => hb.elim

end
end PyKrige
