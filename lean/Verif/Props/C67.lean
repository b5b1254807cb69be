import Verif.Lemmas.ThreadsRun
import Verif.Props.C44OK3D

/-!
C67: threads that construct kriging objects and call `execute` at the same time do not disturb each other.

Programs and threads: `Model/Threads.lean`; the work of a thread: `Spec/Threads.lean` (`Job`, `worker`).  An order is a
list of thread names: who takes the next step.  All threads share the memory that exists at the start.
-/

namespace PyKrige
noncomputable section
open Spec

variable {ι : Type} [DecidableEq ι]

/-- Any number of threads are started in memory `h`; every thread has a list of calls to make, on objects that may be
shared with other threads, with query arrays, masks and data arrays that may be shared with other threads.  Whatever the
order in which the threads take their steps: at every moment the memory that existed at the start is as it was; and a
thread that has finished has got from each of its calls exactly what the call returns (or raises) on the values that
objects and arrays had at the start. -/
theorem C67_threads (h : Heap) (jobs : ι → List Job) (hj : ∀ i, ∀ j ∈ jobs i, j.Possible h.next) (order : List ι)
    {T : Threads ι (List (Py ResultRef))}
    (hT : (Threads.start h fun i => worker (jobs i)).run h.next order = T) :
    (∀ b < h.next, T.common b = h.buf b) ∧
    ∀ i r, T.result i = some r →
      ∃ rs, r = .ok rs ∧ rs.map (fun r => r.map fun x => x.deref (T.view h.next i)) = (jobs i).map (Job.values h) := by
  subst hT
  have hs : (Threads.start h fun i => worker (jobs i)).Safe h.next := Threads.start_safe fun i => worker_safe _ _
  refine ⟨(Threads.run_safe hs order).1, fun i r hr => ?_⟩
  have e := Threads.result_eq hs order hr
  rw [Threads.start_view] at e
  obtain ⟨rs, h', q1, -, -, q4⟩ := worker_seq (hj i) (.refl h.next h)
  have e2 : (worker (jobs i)).seq h = (r, _) := e
  rw [q1] at e2
  obtain ⟨rfl, rfl⟩ := Prod.mk.inj e2
  exact ⟨rs, rfl, q4⟩

/-- No thread can be kept from finishing: for every thread there is a number of steps after which it has finished, in
every order in which it gets so many steps, whatever the other threads do. -/
theorem C67_finishes (h : Heap) (jobs : ι → List Job) (i : ι) :
    ∃ N, ∀ order : List ι, N ≤ order.count i →
      ∃ r, ((Threads.start h fun i => worker (jobs i)).run h.next order).result i = some r :=
  Threads.finishes (Threads.start_safe fun i => worker_safe _ _) i

/-- The arrays a thread has got are its own: they share no memory with anything that existed at the start. -/
theorem C67_results_new (h : Heap) (jobs : ι → List Job) (hj : ∀ i, ∀ j ∈ jobs i, j.Possible h.next) (order : List ι)
    {i : ι} {rs : List (Py ResultRef)}
    (hr : ((Threads.start h fun i => worker (jobs i)).run h.next order).result i = some (.ok rs)) :
    ∀ r ∈ rs, ∀ b ∈ resultBuffers r, h.next ≤ b := by
  have hs : (Threads.start h fun i => worker (jobs i)).Safe h.next := Threads.start_safe fun i => worker_safe _ _
  have e := Threads.result_eq hs order hr
  rw [Threads.start_view] at e
  obtain ⟨rs', h', q1, -, q3, -⟩ := worker_seq (hj i) (.refl h.next h)
  have e2 : (worker (jobs i)).seq h = (.ok rs, _) := e
  rw [q1] at e2
  obtain ⟨e3, -⟩ := Prod.mk.inj e2
  cases Except.ok.inj e3
  exact fun r hr b hb => (q3 r hr b hb).1

/-- One thread after the other, in any order, and all at the same time, in any order, give the same results. -/
theorem C67_order_irrelevant (h : Heap) (jobs : ι → List Job) (hj : ∀ i, ∀ j ∈ jobs i, j.Possible h.next)
    (order order' : List ι) {T T' : Threads ι (List (Py ResultRef))}
    (hT : (Threads.start h fun i => worker (jobs i)).run h.next order = T)
    (hT' : (Threads.start h fun i => worker (jobs i)).run h.next order' = T') {i : ι} {rs rs' : List (Py ResultRef)}
    (hr : T.result i = some (.ok rs)) (hr' : T'.result i = some (.ok rs')) :
    rs.map (fun r => r.map fun x => x.deref (T.view h.next i)) =
      rs'.map (fun r => r.map fun x => x.deref (T'.view h.next i)) := by
  obtain ⟨l, e, q⟩ := (C67_threads h jobs hj order hT).2 i _ hr
  obtain ⟨l', e', q'⟩ := (C67_threads h jobs hj order' hT').2 i _ hr'
  cases Except.ok.inj e
  cases Except.ok.inj e'
  rw [q, q']

/-- The program of a call, when nothing comes between its steps, is the call of `Model/Heap*.lean`. -/
theorem C67_alone (n : ℕ) (env : Env) :
    (∀ (o : OKRef) a, (o.executeT n env a).seq = o.execute n env a) ∧
    (∀ (o : OK3DRef) a, (o.executeT n env a).seq = o.execute n env a) ∧
    (∀ (o : UKRef) a, (o.executeT n a).seq = o.execute n a) ∧
    (∀ (o : UK3DRef) a, (o.executeT n a).seq = o.execute n a) ∧
    (∀ x y z args, (OKRef.createT n env x y z args).seq = OKRef.create n env x y z args) ∧
    (∀ x y z v args, (OK3DRef.createT n env x y z v args).seq = OK3DRef.create n env x y z v args) ∧
    (∀ x y z args, (UKRef.createT n env x y z args).seq = UKRef.create n env x y z args) ∧
    (∀ x y z v args, (UK3DRef.createT n env x y z v args).seq = UK3DRef.create n env x y z v args) :=
  ⟨OKRef.seq_execute n env, OK3DRef.seq_execute n env, UKRef.seq_execute n, UK3DRef.seq_execute n,
    OKRef.seq_create n env, OK3DRef.seq_create n env, UKRef.seq_create n env, UK3DRef.seq_create n env⟩

/-! ### Cases -/

/-- Two threads share an object, its parameter list and the query arrays; a third builds objects from the same data and
the same parameter list. -/
example : ∃ o h', OKRef.create 2 stdEnv (Demo.arr 0 2) (Demo.arr 1 2) (Demo.arr 0 2) Demo.refArgs Demo.mem = (.ok o, h') ∧
    ∀ i : Fin 3, ∀ j ∈ (![[.ok 2 stdEnv o Demo.refCall, .ok 2 stdEnv o { Demo.refCall with backend := "loop" }],
        [.ok 2 stdEnv o Demo.refCall],
        [.newOk 2 stdEnv (Demo.arr 0 2) (Demo.arr 1 2) (Demo.arr 0 2) Demo.refArgs Demo.refCall,
          .newOk3d 2 stdEnv (Demo.arr 0 2) (Demo.arr 1 2) (Demo.arr 1 2) (Demo.arr 0 2) Demo.refArgs3
            Demo.refCall3]] : Fin 3 → List Job) i, j.Possible h'.next := by
  obtain ⟨o, h', s, hc, hs, hd, hi, hps, hm⟩ := Demo.ref_created
  have hp : ∀ b ∈ listBuffers Demo.refArgs.paramRef, b < Demo.mem.next := by
    rintro b rfl; decide
  have hn : Demo.mem.next ≤ h'.next := by
    have B := (okLaws_built stdEnv rfl (show (Demo.arr 0 2).buf < Demo.mem.next by decide)
      (show (Demo.arr 1 2).buf < Demo.mem.next by decide) (show (Demo.arr 0 2).buf < Demo.mem.next by decide) hp hc).1
    exact B.frame.next_le
  have h5 : 5 ≤ h'.next := hn
  refine ⟨o, h', hc, ?_⟩
  have had : Had (okClass 2 stdEnv) (OKNew 2 stdEnv) o h'.next :=
    .new ⟨Demo.mem, h', Demo.arr 0 2, Demo.arr 1 2, Demo.arr 0 2, Demo.refArgs, rfl, by decide, by decide, by decide,
      hp, hc, rfl⟩
  have pass : ∀ (st : String), ∀ b ∈ passed2 { Demo.refCall with backend := st }, b < h'.next := by
    rintro st b (rfl | rfl | ⟨_, hm, -⟩)
    · exact lt_of_lt_of_le (by decide : 3 < 5) h5
    · exact lt_of_lt_of_le (by decide : 4 < 5) h5
    · cases hm
  have pass3 : ∀ b ∈ passed3 Demo.refCall3, b < h'.next := by
    rintro b (rfl | rfl | rfl | ⟨_, hm, -⟩)
    · exact lt_of_lt_of_le (by decide : 3 < 5) h5
    · exact lt_of_lt_of_le (by decide : 4 < 5) h5
    · exact lt_of_lt_of_le (by decide : 4 < 5) h5
    · cases hm
  have b0 : (Demo.arr 0 2).buf < h'.next := lt_of_lt_of_le (by decide : 0 < 5) h5
  have b1 : (Demo.arr 1 2).buf < h'.next := lt_of_lt_of_le (by decide : 1 < 5) h5
  have hp' : ∀ b ∈ listBuffers Demo.refArgs.paramRef, b < h'.next := fun b hb => (hp b hb).trans_le hn
  intro i j hj
  fin_cases i
  · rcases List.mem_cons.1 hj with rfl | hj
    · exact ⟨⟨_, le_rfl, had⟩, pass _⟩
    · rcases List.mem_cons.1 hj with rfl | hj
      · exact ⟨⟨_, le_rfl, had⟩, pass _⟩
      · cases hj
  · rcases List.mem_cons.1 hj with rfl | hj
    · exact ⟨⟨_, le_rfl, had⟩, pass _⟩
    · cases hj
  · rcases List.mem_cons.1 hj with rfl | hj
    · exact ⟨rfl, b0, b1, b0, hp', pass _⟩
    · rcases List.mem_cons.1 hj with rfl | hj
      · exact ⟨rfl, b0, b1, b1, b0, hp', pass3⟩
      · cases hj

/-- The threads of the model can disturb each other: thread 0 sets `a[0] = 1`, thread 1 returns `a[0]`, and `a` is
shared.  The result of thread 1 depends on the order. -/
example : ∃ (h : Heap) (prog : Fin 2 → Thr ℝ),
    ((Threads.start h prog).run h.next [1]).result 1 = some (.ok 0) ∧
    ((Threads.start h prog).run h.next [0, 1]).result 1 = some (.ok 1) := by
  refine ⟨{ next := 1, buf := fun _ _ => 0 }, ![(Demo.arr 0 1).assignT (fun _ _ => True) (fun _ _ => 1) >>= fun _ => pure 0,
    Thr.here >>= fun h => pure ((Demo.arr 0 1).get h 0 0)], ?_, ?_⟩
  · rfl
  · show some (Except.ok _) = _
    refine congrArg (fun v : ℝ => some (Except.ok v)) ?_
    exact dif_pos ⟨rfl, ⟨(0, 0), by decide, by decide, trivial, rfl⟩⟩

end
end PyKrige
