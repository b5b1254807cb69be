import Verif.Lemmas.LawsUK
import Verif.Props.C25
import Verif.Props.C44

/-! C44 for `UniversalKriging`; see `Props/C44.lean` for what the theorems say. -/

namespace PyKrige
noncomputable section
open Spec

/-- The constructor changes no array that existed before, and does what it does with the values of its arguments. -/
theorem C44_create_uk {n : ℕ} (env : Env) (h : Heap) (x y z : Arr) (hx : x.cols = n) (bx : x.buf < h.next)
    (byy : y.buf < h.next) (bz : z.buf < h.next) (args : UKRefArgs)
    (hp : ∀ b ∈ listBuffers args.paramRef, b < h.next) (hd : ∀ b ∈ driftBuffers args, b < h.next) :
    (∀ b < h.next, (UKRef.create n env x y z args h).2.buf b = h.buf b) ∧
      (UKRef.create n env x y z args h).1.map (fun o => o.deref (UKRef.create n env x y z args h).2 n) =
        UK.create env (x.vec h n) (y.vec h n) (z.vec h n) (args.deref h) := by
  rcases (Does.createUK (h := h) env x y z hx bx byy bz args (UKRefArgs.below_of hp hd)).cases with
    ⟨e, h2, r1, r2, f⟩ | ⟨o, h2, s, r1, r2, f, q1, -⟩
  · rw [r1, r2]; exact ⟨f.same, rfl⟩
  · rw [r1, r2]; exact ⟨f.same, congrArg Except.ok q1⟩

/-- A program that starts with the construction of an object gets from every call what the call would return if
arrays were values. -/
theorem C44_session_uk {n : ℕ} (env : Env) {h h' : Heap} {x y z : Arr} (hx : x.cols = n) (bx : x.buf < h.next)
    (byy : y.buf < h.next) (bz : z.buf < h.next) {args : UKRefArgs}
    (hp : ∀ b ∈ listBuffers args.paramRef, b < h.next) (hd : ∀ b ∈ driftBuffers args, b < h.next) {o : UKRef}
    (hc : UKRef.create n env x y z args h = (.ok o, h')) (l : List (Event (ukClass n env)))
    (ha : (Session.start (C := ukClass n env) h.next args.paramRef o h').AllowsAll l) :
    ∃ s, UK.create env (x.vec h n) (y.vec h n) (z.vec h n) (args.deref h) = .ok s ∧
      (Session.start (C := ukClass n env) h.next args.paramRef o h').outcomes l =
        (UK.run env s ((Session.start (C := ukClass n env) h.next args.paramRef o h').calls l)).1 := by
  obtain ⟨b, e⟩ := ukLaws_built env hx bx byy bz hp hd hc
  exact ⟨_, e, (ukLaws n env).session b l ha⟩

/-- Between calls of `update_variogram_model` every result of `execute` depends only on the contents of its arguments
at the time of the call. -/
theorem C44_execute_harmless_uk {n : ℕ} (env : Env) {h h' : Heap} {x y z : Arr} (hx : x.cols = n) (bx : x.buf < h.next)
    (byy : y.buf < h.next) (bz : z.buf < h.next) {args : UKRefArgs}
    (hp : ∀ b ∈ listBuffers args.paramRef, b < h.next) (hd : ∀ b ∈ driftBuffers args, b < h.next) {o : UKRef}
    (hc : UKRef.create n env x y z args h = (.ok o, h')) (l₀ l : List (Event (ukClass n env)))
    (ha : (Session.start (C := ukClass n env) h.next args.paramRef o h').AllowsAll l₀) (hl : ∀ e ∈ l, e.NotUpdate)
    {s s' : Session (ukClass n env)} (hs : (Session.start h.next args.paramRef o h').final l₀ = s)
    (ha' : s.AllowsAll l) (hs' : s.final l = s') (a b : UKExecRefs) (ra : s.Allows (.execute a))
    (rb : s'.Allows (.execute b)) (hab : b.deref s'.heap = a.deref s.heap) :
    s'.outcome (.execute b) = s.outcome (.execute a) :=
  (ukLaws n env).harmless (ukLaws_built env hx bx byy bz hp hd hc).1 l₀ l ha hl hs ha' hs' a b ra rb hab

/-- Whatever the program does not overwrite itself keeps its contents: no call, failing or not, modifies an array that
existed before the call. -/
theorem C44_memory_kept_uk {n : ℕ} (env : Env) {h h' : Heap} {x y z : Arr} (hx : x.cols = n) (bx : x.buf < h.next)
    (byy : y.buf < h.next) (bz : z.buf < h.next) {args : UKRefArgs}
    (hp : ∀ b ∈ listBuffers args.paramRef, b < h.next) (hd : ∀ b ∈ driftBuffers args, b < h.next) {o : UKRef}
    (hc : UKRef.create n env x y z args h = (.ok o, h')) (l₀ l : List (Event (ukClass n env)))
    (ha : (Session.start (C := ukClass n env) h.next args.paramRef o h').AllowsAll l₀)
    {s : Session (ukClass n env)} (hs : (Session.start h.next args.paramRef o h').final l₀ = s)
    (ha' : s.AllowsAll l) (b : ℕ) (hb : b < s.heap.next) (hw : ∀ v, Event.write b v ∉ l) :
    (s.final l).heap.buf b = s.heap.buf b := by
  have hi := ((ukLaws n env).steps l₀ (ukLaws_built env hx bx byy bz hp hd hc).1.inv ha).1
  rw [hs] at hi
  exact (ukLaws n env).kept l hi ha' hb hw

/-- The arrays `execute` returns are new: none of them shares memory with anything that existed before the call, the
object included. -/
theorem C44_results_new_uk {n : ℕ} (env : Env) {h h' : Heap} {x y z : Arr} (hx : x.cols = n) (bx : x.buf < h.next)
    (byy : y.buf < h.next) (bz : z.buf < h.next) {args : UKRefArgs}
    (hp : ∀ b ∈ listBuffers args.paramRef, b < h.next) (hd : ∀ b ∈ driftBuffers args, b < h.next) {o : UKRef}
    (hc : UKRef.create n env x y z args h = (.ok o, h')) (l : List (Event (ukClass n env)))
    (ha : (Session.start (C := ukClass n env) h.next args.paramRef o h').AllowsAll l)
    {s : Session (ukClass n env)} (hs : (Session.start h.next args.paramRef o h').final l = s) (a : UKExecRefs)
    (ra : s.Allows (.execute a)) {r : ResultRef} {h'' : Heap} (hr : s.obj.execute n a s.heap = (.ok r, h'')) :
    s.heap.next ≤ r.z.buf ∧ s.heap.next ≤ r.ss.buf ∧ ∀ m ∈ r.mask, s.heap.next ≤ m.buf :=
  (ukLaws n env).new_results (ukLaws_built env hx bx byy bz hp hd hc).1 l ha hs a ra hr

namespace Demo

/-- As `mem`, and buffer 5: an array with one row `(0, 1, -1)`, the well of `wargs`. -/
def memW : Heap :=
  { next := 6, buf := fun b p => if b = 5 then (if p.2 = 0 then 0 else if p.2 = 1 then 1 else -1) else mem.buf b p }

/-- The well. -/
def well : Arr := { buf := 5, rows := 1, cols := 3, cell := fun r c => (r, c) }

def refArgsW : UKRefArgs := { (wargs 2) with paramRef := .list (arr 2 2), pointDriftRef := some well }

def refCallW : UKExecRefs := { toExec := refCall }

theorem memW_x : (arr 0 2).vec memW 2 = X := by
  funext i; fin_cases i <;> simp [Arr.vec, Arr.get, arr, memW, mem, X]

theorem memW_y : (arr 1 2).vec memW 2 = O := by
  funext i; fin_cases i <;> simp [Arr.vec, Arr.get, arr, memW, mem, O]

theorem memW_args : refArgsW.deref memW = wargs 2 := by
  simp [refArgsW, UKRefArgs.deref, ParamRef.deref, wargs, Arr.list, Arr.get, arr, memW, mem, List.range_succ, well,
    Arr.wells, listArgDeref]

theorem lists_lt : ∀ b ∈ listBuffers refArgsW.paramRef, b < memW.next := by
  rintro b rfl; decide

theorem drift_lt : ∀ b ∈ driftBuffers refArgsW, b < memW.next := by
  rintro b (⟨a, ha, rfl⟩ | ⟨a, ha, rfl⟩ | ⟨a, ha, rfl⟩ | ⟨a, ha, rfl⟩ | ⟨l, hl, a, ha, rfl⟩)
  · cases ha; decide
  · cases ha
  · cases ha
  · cases ha
  · cases hl; cases ha

theorem ref_createdW : ∃ o h', UKRef.create 2 stdEnv (arr 0 2) (arr 1 2) (arr 0 2) refArgsW memW = (.ok o, h') := by
  obtain ⟨s, hs, -⟩ := wuk 2 X
  have hb : (arr 0 2).buf < memW.next := by decide
  have hb1 : (arr 1 2).buf < memW.next := by decide
  rcases (Does.createUK (h := memW) (n := 2) stdEnv (arr 0 2) (arr 1 2) (arr 0 2) rfl hb hb1 hb refArgsW
    (UKRefArgs.below_of lists_lt drift_lt)).cases with ⟨e, h2, r1, r2, f⟩ | ⟨o, h2, s', r1, r2, f, q1, -⟩
  · rw [memW_x, memW_y, memW_args, hs] at r2; cases r2
  · exact ⟨o, h2, r1⟩

end Demo

/-- A program as in `C44_session_uk`, with a well: it calls `execute`, overwrites the data arrays, the array of the wells
and a query array, makes a new array, asks for something impossible, calls `execute` again and updates the
variogram. -/
example : (∀ b ∈ driftBuffers Demo.refArgsW, b < Demo.memW.next) ∧
    ∃ o h', UKRef.create 2 stdEnv (Demo.arr 0 2) (Demo.arr 1 2) (Demo.arr 0 2) Demo.refArgsW Demo.memW = (.ok o, h') ∧
    (Session.start (C := ukClass 2 stdEnv) Demo.memW.next Demo.refArgsW.paramRef o h').AllowsAll
      [.execute Demo.refCallW, .write 0 fun _ => 7, .write 5 fun _ => -1, .alloc fun _ => 3,
        .execute { toExec := { Demo.refCall with style := "circle" } }, .execute Demo.refCallW,
        .update { variogramModel := .name "power", paramRef := .none }] := by
  obtain ⟨o, h', hc⟩ := Demo.ref_createdW
  refine ⟨Demo.drift_lt, o, h', hc, ?_⟩
  have l3 : (3 : ℕ) < Demo.memW.next := by decide
  have l4 : (4 : ℕ) < Demo.memW.next := by decide
  have l5 : (5 : ℕ) < Demo.memW.next := by decide
  have pass : ∀ (st : String) (m : Set ℕ), 3 ∈ m → 4 ∈ m → passedUK { toExec := { Demo.refCall with style := st } } ⊆ m := by
    rintro st m h3 h4 b ((rfl | rfl | ⟨_, hm, -⟩) | hb)
    · exact h3
    · exact h4
    · cases hm
    · exact hb.elim
  refine ⟨pass _ _ l3 l4, ⟨Or.inl (show (0 : ℕ) < Demo.memW.next by decide), ?_⟩, ⟨Or.inl l5, ?_⟩,
    trivial, pass _ _ (Or.inl (Or.inl l3)) (Or.inl (Or.inl l4)),
    pass _ _ (Or.inl (Or.inl (Or.inl l3))) (Or.inl (Or.inl (Or.inl l4))), ?_, trivial⟩
  · show (0 : ℕ) ∉ ({2} : Set ℕ)
    simp
  · show (5 : ℕ) ∉ ({2} : Set ℕ)
    simp
  · show listBuffers .none ⊆ _
    exact fun b hb => hb.elim

end
end PyKrige
