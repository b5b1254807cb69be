import Verif.Lemmas.ThreadsNew
import Verif.Lemmas.LawsOK
import Verif.Lemmas.LawsOK3D
import Verif.Lemmas.LawsUK
import Verif.Lemmas.LawsUK3
import Verif.Spec.Threads

/-! Threads whose steps do not write into common buffers run as if alone. -/

namespace PyKrige
noncomputable section
open Spec

section
variable {ι α : Type} [DecidableEq ι]

/-- One step of a program that runs alone. -/
def Thr.solo : Thr α × Heap → Thr α × Heap
  | (.ret r, h) => (.ret r, h)
  | (.step eff k, h) => (k h, eff h)

theorem Thr.solo_seq (p : Thr α × Heap) : (Thr.solo p).1.seq (Thr.solo p).2 = p.1.seq p.2 := by
  obtain ⟨t, h⟩ := p
  cases t <;> rfl

theorem Thr.solo_iterate_seq (p : Thr α × Heap) (n : ℕ) :
    (Thr.solo^[n] p).1.seq (Thr.solo^[n] p).2 = p.1.seq p.2 := by
  induction n generalizing p with
  | zero => rfl
  | succ n ih => rw [Function.iterate_succ_apply, ih, Thr.solo_seq]

theorem Thr.solo_iterate_ret (r : Py α) (h : Heap) (n : ℕ) : Thr.solo^[n] (.ret r, h) = (.ret r, h) := by
  induction n with
  | zero => rfl
  | succ n ih => rw [Function.iterate_succ_apply]; exact ih

theorem Thr.solo_finishes (t : Thr α) (h : Heap) : ∃ N r h', ∀ n ≥ N, Thr.solo^[n] (t, h) = (.ret r, h') := by
  induction t generalizing h with
  | ret r => exact ⟨0, r, h, fun n _ => Thr.solo_iterate_ret r h n⟩
  | step eff k ih =>
    obtain ⟨N, r, h', e⟩ := ih h (eff h)
    refine ⟨N + 1, r, h', fun n hn => ?_⟩
    obtain ⟨m, rfl⟩ : ∃ m, n = m + 1 := ⟨n - 1, by omega⟩
    rw [Function.iterate_succ_apply]
    exact e m (by omega)

/-- All threads respect the common buffers. -/
def Threads.Safe (w : ℕ) (T : Threads ι α) : Prop := ∀ i, (T.prog i).Safe w (fun _ => True) ∧ w ≤ (T.own i).next

theorem Threads.step_safe {w : ℕ} {T : Threads ι α} (hT : T.Safe w) (i : ι) :
    (T.step w i).Safe w ∧ (∀ b < w, (T.step w i).common b = T.common b) ∧
      ∀ j, ((T.step w i).prog j, (T.step w i).view w j) =
        if i = j then Thr.solo (T.prog j, T.view w j) else (T.prog j, T.view w j) := by
  unfold Threads.step
  cases hp : T.prog i with
  | ret r =>
    refine ⟨hT, fun _ _ => rfl, fun j => ?_⟩
    by_cases e : i = j
    · subst e; rw [if_pos rfl, hp]; rfl
    · rw [if_neg e]
  | step eff k =>
    have hs := (hT i).1
    rw [hp] at hs
    obtain ⟨fr, hk⟩ := hs (T.view w i) (hT i).2
    have hc : ∀ b < w, (eff (T.view w i)).buf b = T.common b := fun b hb => by
      rw [fr.same b hb]; exact if_pos hb
    refine ⟨fun j => ?_, fun b hb => ?_, fun j => ?_⟩
    · by_cases e : j = i
      · subst e
        dsimp only
        rw [Function.update_self, Function.update_self]
        exact ⟨hk, (hT j).2.trans fr.next_le⟩
      · dsimp only
        rw [Function.update_of_ne e, Function.update_of_ne e]
        exact hT j
    · dsimp only
      rw [if_pos hb]
      exact hc b hb
    · by_cases e : i = j
      · subst e
        rw [if_pos rfl, hp]
        refine Prod.ext (Function.update_self _ _ _) ?_
        unfold Threads.view
        dsimp only [Thr.solo]
        rw [Function.update_self]
        show _ = eff (T.view w i)
        generalize hv : eff (T.view w i) = v
        have : (fun b => if b < w then if b < w then v.buf b else T.common b else v.buf b) = v.buf := by
          funext b; by_cases hb : b < w
          · rw [if_pos hb, if_pos hb]
          · rw [if_neg hb]
        unfold Threads.view at hv
        rw [hv, this]
      · rw [if_neg e]
        refine Prod.ext (Function.update_of_ne (Ne.symm e) _ _) ?_
        unfold Threads.view
        dsimp only
        rw [Function.update_of_ne (Ne.symm e)]
        congr 1
        funext b
        by_cases hb : b < w
        · rw [if_pos hb, if_pos hb, if_pos hb]; exact hc b hb
        · rw [if_neg hb, if_neg hb]

theorem Threads.run_safe {w : ℕ} {T : Threads ι α} (hT : T.Safe w) (order : List ι) :
    (∀ b < w, (T.run w order).common b = T.common b) ∧
      ∀ j, ((T.run w order).prog j, (T.run w order).view w j) =
        Thr.solo^[order.count j] (T.prog j, T.view w j) := by
  induction order generalizing T with
  | nil => exact ⟨fun _ _ => rfl, fun j => rfl⟩
  | cons i l ih =>
    obtain ⟨s1, s2, s3⟩ := Threads.step_safe hT i
    obtain ⟨r1, r2⟩ := ih s1
    refine ⟨fun b hb => (r1 b hb).trans (s2 b hb), fun j => ?_⟩
    show (((T.step w i).run w l).prog j, ((T.step w i).run w l).view w j) = _
    rw [r2 j, s3 j]
    by_cases e : i = j
    · subst e
      rw [if_pos rfl, List.count_cons_self, Function.iterate_succ_apply]
    · rw [if_neg e, List.count_cons_of_ne e]

/-- What a finished thread has computed and what it sees is what it computes alone. -/
theorem Threads.result_eq {w : ℕ} {T : Threads ι α} (hT : T.Safe w) (order : List ι) {i : ι} {r : Py α}
    (hr : (T.run w order).result i = some r) :
    (T.prog i).seq (T.view w i) = (r, (T.run w order).view w i) := by
  have e := (Threads.run_safe hT order).2 i
  have q := Thr.solo_iterate_seq (T.prog i, T.view w i) (order.count i)
  rw [← e] at q
  unfold Threads.result at hr
  cases hp : (T.run w order).prog i with
  | ret r' =>
    rw [hp] at hr
    cases hr
    rw [← q, hp]
    rfl
  | step eff k => rw [hp] at hr; cases hr

theorem Threads.finishes {w : ℕ} {T : Threads ι α} (hT : T.Safe w) (i : ι) :
    ∃ N, ∀ order : List ι, N ≤ order.count i → ∃ r, (T.run w order).result i = some r := by
  obtain ⟨N, r, h', e⟩ := Thr.solo_finishes (T.prog i) (T.view w i)
  refine ⟨N, fun order ho => ⟨r, ?_⟩⟩
  have q := (Threads.run_safe hT order).2 i
  rw [e _ ho] at q
  unfold Threads.result
  rw [show (T.run w order).prog i = .ret r from congrArg Prod.fst q]

omit [DecidableEq ι] in
theorem Threads.start_view (h : Heap) (prog : ι → Thr α) (i : ι) : (Threads.start h prog).view h.next i = h := by
  unfold Threads.view Threads.start
  dsimp only
  congr 1
  funext b
  split <;> rfl

omit [DecidableEq ι] in
theorem Threads.start_safe {h : Heap} {prog : ι → Thr α} (hp : ∀ i, (prog i).Safe h.next fun _ => True) :
    (Threads.start h prog).Safe h.next := fun i => ⟨hp i, le_rfl⟩

end

/-! ### Workers -/

theorem Spec.Had.sound {C : RefClass} {S : Type} {updV : S → C.UpdVal → Py Unit × S} {execV : S → C.ExecVal → Py ExecResult}
    (L : Laws C S updV execV) {new : C.Obj → ℕ → Prop} (hn : ∀ o k, new o k → L.Sound o k) {o : C.Obj} {k : ℕ}
    (h : Had C new o k) : L.Sound o k := by
  induction h with
  | new h => exact hn _ _ h
  | update ho hk hp ih => exact L.upd_sound (L.mono ih hk) hp

theorem Spec.Job.safe (w : ℕ) (j : Job) : j.prog.Safe w fun _ => True := by
  cases j with
  | ok n env o a => exact o.safe_execute n env a
  | ok3d n env o a => exact o.safe_execute n env a
  | uk n env o a => exact o.safe_execute n a
  | uk3d n env o a => exact o.safe_execute n a
  | newOk n env x y z args a => exact Thr.Safe.any (OKRef.safe_create _ _ _ _ _ _) fun o => o.safe_execute n env a
  | newOk3d n env x y z v args a => exact Thr.Safe.any (OK3DRef.safe_create _ _ _ _ _ _ _) fun o => o.safe_execute n env a
  | newUk n env x y z args a => exact Thr.Safe.any (UKRef.safe_create _ _ _ _ _ _) fun o => o.safe_execute n a
  | newUk3d n env x y z v args a => exact Thr.Safe.any (UK3DRef.safe_create _ _ _ _ _ _ _) fun o => o.safe_execute n a

theorem worker_safe (w : ℕ) (l : List Job) : (worker l).Safe w fun _ => True := by
  induction l with
  | nil => trivial
  | cons j l ih => exact Thr.Safe.bind (j.safe w).attempt fun _ _ => Thr.Safe.bind ih fun _ _ => .pure trivial

theorem okNew_sound {n : ℕ} {env : Env} (o : OKRef) (k : ℕ) (h : OKNew n env o k) : (okLaws n env).Sound o k := by
  obtain ⟨h, h', x, y, z, args, c1, c2, c3, c4, c5, c6, rfl⟩ := h
  exact (okLaws_built env c1 c2 c3 c4 c5 c6).1.sound

theorem ok3dNew_sound {n : ℕ} {env : Env} (o : OK3DRef) (k : ℕ) (h : OK3DNew n env o k) :
    (ok3dLaws n env).Sound o k := by
  obtain ⟨h, h', x, y, z, v, args, c1, c2, c3, c4, c5, c6, c7, rfl⟩ := h
  exact (ok3dLaws_built env c1 c2 c3 c4 c5 c6 c7).1.sound

theorem ukNew_sound {n : ℕ} {env : Env} (o : UKRef) (k : ℕ) (h : UKNew n env o k) : (ukLaws n env).Sound o k := by
  obtain ⟨h, h', x, y, z, args, c1, c2, c3, c4, c5, c6, c7, rfl⟩ := h
  exact (ukLaws_built env c1 c2 c3 c4 c5 c6 c7).1.sound

theorem uk3dNew_sound {n : ℕ} {env : Env} (o : UK3DRef) (k : ℕ) (h : UK3DNew n env o k) :
    (uk3dLaws n env).Sound o k := by
  obtain ⟨h, h', x, y, z, v, args, c1, c2, c3, c4, c5, c6, c7, c8, rfl⟩ := h
  exact (uk3dLaws_built env c1 c2 c3 c4 c5 c6 c7 c8).1.sound

theorem Arr.mask2_congr {h h' : Heap} {a : Arr} (e : h'.buf a.buf = h.buf a.buf) : a.mask2 h' = a.mask2 h := by
  unfold Arr.mask2
  simp only [Arr.get_congr e]

theorem ExecRefs.deref_congr {h h' : Heap} {a : ExecRefs} (e : ∀ b ∈ passed2 a, h'.buf b = h.buf b) :
    a.deref h' = a.deref h := by
  unfold ExecRefs.deref
  rw [Arr.list_congr (e _ (Or.inl rfl)), Arr.list_congr (e _ (Or.inr (Or.inl rfl)))]
  have hm : a.mask.map (Arr.mask2 h') = a.mask.map (Arr.mask2 h) :=
    Option.map_congr fun m hm => Arr.mask2_congr (e _ (Or.inr (Or.inr ⟨m, hm, rfl⟩)))
  rw [hm]

theorem Mask3Ref.deref_congr {h h' : Heap} {m : Mask3Ref} (e : h'.buf m.buf = h.buf m.buf) : m.deref h' = m.deref h := by
  cases m with
  | wrongNdim b => rfl
  | arr a =>
    unfold Mask3Ref.deref Arr3.get
    dsimp only
    rw [show h'.buf a.buf = h.buf a.buf from e]

theorem ExecRefs3.deref_congr {h h' : Heap} {a : ExecRefs3} (e : ∀ b ∈ passed3 a, h'.buf b = h.buf b) :
    a.deref h' = a.deref h := by
  unfold ExecRefs3.deref
  rw [Arr.list_congr (e _ (Or.inl rfl)), Arr.list_congr (e _ (Or.inr (Or.inl rfl))),
    Arr.list_congr (e _ (Or.inr (Or.inr (Or.inl rfl))))]
  have hm : a.mask.map (Mask3Ref.deref h') = a.mask.map (Mask3Ref.deref h) :=
    Option.map_congr fun m hm => Mask3Ref.deref_congr (e _ (Or.inr (Or.inr (Or.inr ⟨m, hm, rfl⟩))))
  rw [hm]

theorem SpecRef.deref_congr {h h' : Heap} {r : SpecRef} (e : h'.buf r.buf = h.buf r.buf) : r.deref h' = r.deref h := by
  cases r with
  | d1 a => exact congrArg SpecArray.d1 (Arr.list_congr e)
  | d2 a =>
    unfold SpecRef.deref Arr.get
    dsimp only
    rw [show h'.buf a.buf = h.buf a.buf from e]

theorem UKExecRefs.deref_congr {h h' : Heap} {a : UKExecRefs} (e : ∀ b ∈ passedUK a, h'.buf b = h.buf b) :
    a.deref h' = a.deref h := by
  unfold UKExecRefs.deref
  rw [ExecRefs.deref_congr fun b hb => e b (Or.inl hb)]
  have hs : a.spec.deref h' = a.spec.deref h := by
    cases ha : a.spec with
    | list l =>
      refine congrArg SpecArg.list (List.map_congr_left fun r hr => SpecRef.deref_congr (e _ (Or.inr ?_)))
      rw [ha]; exact ⟨r, hr, rfl⟩
    | _ => rfl
  rw [hs]

theorem SpecRef3.deref_congr {h h' : Heap} {r : SpecRef3} (e : h'.buf r.buf = h.buf r.buf) : r.deref h' = r.deref h := by
  cases r with
  | d1 a => exact congrArg SpecArray3.d1 (Arr.list_congr e)
  | d2 a => rfl
  | d3 a =>
    refine congrArg (SpecArray3.d3 a.d0 a.d1 a.d2) ?_
    unfold Arr3.get
    rw [show h'.buf a.buf = h.buf a.buf from e]

theorem UK3DExecRefs.deref_congr {h h' : Heap} {a : UK3DExecRefs} (e : ∀ b ∈ passedUK3 a, h'.buf b = h.buf b) :
    a.deref h' = a.deref h := by
  unfold UK3DExecRefs.deref
  rw [ExecRefs3.deref_congr fun b hb => e b (Or.inl hb)]
  have hs : a.spec.deref h' = a.spec.deref h := by
    cases ha : a.spec with
    | list l =>
      refine congrArg SpecArg3.list (List.map_congr_left fun r hr => SpecRef3.deref_congr (e _ (Or.inr ?_)))
      rw [ha]; exact ⟨r, hr, rfl⟩
    | _ => rfl
  rw [hs]

theorem ResultRef.deref_congr {h h' : Heap} {r : ResultRef} (e : ∀ b ∈ resultBuffers (.ok r), h'.buf b = h.buf b) :
    r.deref h' = r.deref h := by
  unfold ResultRef.deref
  rw [Arr.list_congr (e _ (Or.inl rfl)), Arr.list_congr (e _ (Or.inr (Or.inl rfl)))]
  cases hm : r.mask with
  | none => rfl
  | some m =>
    have : m.bools h' = m.bools h := by
      unfold Arr.bools; rw [Arr.list_congr (e _ (Or.inr (Or.inr ⟨m, hm, rfl⟩)))]
    dsimp only
    rw [this]

theorem H.bind_of_ok {α β : Type} {m : H α} {k : α → H β} {h h' : Heap} {a : α} (e : m h = (.ok a, h')) :
    (m >>= k) h = k a h' := by
  have e' : (m >>= k) h = match m h with
    | (.ok a, h') => k a h'
    | (.error e, h') => (.error e, h') := rfl
  rw [e', e]

theorem H.bind_of_error {α β : Type} {m : H α} {k : α → H β} {h h' : Heap} {x : PyErr} (e : m h = (.error x, h')) :
    (m >>= k) h = (.error x, h') := by
  have e' : (m >>= k) h = match m h with
    | (.ok a, h') => k a h'
    | (.error e, h') => (.error e, h') := rfl
  rw [e', e]

/-- A constructor and then `execute`. -/
theorem Executed.build {C : RefClass} {S : Type} {updV : S → C.UpdVal → Py Unit × S}
    {execV : S → C.ExecVal → Py ExecResult} (L : Laws C S updV execV) {h : Heap} {m : H C.Obj} {v : Py S}
    {R : C.Obj → Heap → S → Prop} (d : Does h.next m h v R)
    (hR : ∀ o h' s, R o h' s → L.deref h' o = s ∧ L.Sound o h'.next) {a : C.Exec} (ha : ∀ b ∈ C.passed a, b < h.next)
    (hv : ∀ h', Heap.Frame h.next h h' → C.execVal h' a = C.execVal h a) :
    Executed h ((m >>= fun o => C.execute o a) h) (v >>= fun s => execV s (C.execVal h a)) := by
  rcases d.cases with ⟨e, h', r1, r2, f⟩ | ⟨o, h', s, r1, r2, f, q⟩
  · rw [H.bind_of_error r1, r2]
    exact ⟨f, rfl, fun b hb => hb.elim⟩
  · obtain ⟨rfl, hs⟩ := hR o h' s q
    rw [H.bind_of_ok r1, r2, py_ok_bind, ← hv h' f]
    have E := L.exec hs (a := a) fun b hb => (ha b hb).trans_le f.next_le
    exact ⟨f.trans (E.frame.mono f.next_le), E.outcome, fun b hb => ⟨f.next_le.trans (E.new b hb).1, (E.new b hb).2⟩⟩

/-- Alone, from memory `h`, a possible call does what it does on values. -/
theorem Spec.Job.executed {h : Heap} {j : Job} (hj : j.Possible h.next) : Executed h (j.prog.seq h) (j.values h) := by
  cases j with
  | ok n env o a =>
    obtain ⟨⟨k, hk, ho⟩, ha⟩ := hj
    have e : (Job.ok n env o a).prog.seq = o.execute n env a := o.seq_execute n env a
    rw [e]
    exact (okLaws n env).exec ((okLaws n env).mono (Had.sound (okLaws n env) okNew_sound ho) hk) ha
  | ok3d n env o a =>
    obtain ⟨⟨k, hk, ho⟩, ha⟩ := hj
    have e : (Job.ok3d n env o a).prog.seq = o.execute n env a := o.seq_execute n env a
    rw [e]
    exact (ok3dLaws n env).exec ((ok3dLaws n env).mono (Had.sound (ok3dLaws n env) ok3dNew_sound ho) hk) ha
  | uk n env o a =>
    obtain ⟨⟨k, hk, ho⟩, ha⟩ := hj
    have e : (Job.uk n env o a).prog.seq = o.execute n a := o.seq_execute n a
    rw [e]
    exact (ukLaws n env).exec ((ukLaws n env).mono (Had.sound (ukLaws n env) ukNew_sound ho) hk) ha
  | uk3d n env o a =>
    obtain ⟨⟨k, hk, ho⟩, ha⟩ := hj
    have e : (Job.uk3d n env o a).prog.seq = o.execute n a := o.seq_execute n a
    rw [e]
    exact (uk3dLaws n env).exec ((uk3dLaws n env).mono (Had.sound (uk3dLaws n env) uk3dNew_sound ho) hk) ha
  | newOk n env x y z args a =>
    obtain ⟨c1, c2, c3, c4, c5, c6⟩ := hj
    have e : (Job.newOk n env x y z args a).prog.seq = (OKRef.create n env x y z args >>= fun o =>
        (okClass n env).execute o a) := by
      show (OKRef.createT n env x y z args >>= fun o => o.executeT n env a).seq = _
      simp only [Thr.seq_bind, OKRef.seq_create, OKRef.seq_execute]
    rw [e]
    exact Executed.build (okLaws n env) (Does.create env x y z c1 c2 c3 c4 args (ParamRef.below_of c5))
      (fun o h' s q => ⟨q.1, q.2.1⟩) c6 fun h' f => ExecRefs.deref_congr fun b hb => f.same b (c6 b hb)
  | newOk3d n env x y z v args a =>
    obtain ⟨c1, c2, c3, c4, c4', c5, c6⟩ := hj
    have e : (Job.newOk3d n env x y z v args a).prog.seq = (OK3DRef.create n env x y z v args >>= fun o =>
        (ok3dClass n env).execute o a) := by
      show (OK3DRef.createT n env x y z v args >>= fun o => o.executeT n env a).seq = _
      simp only [Thr.seq_bind, OK3DRef.seq_create, OK3DRef.seq_execute]
    rw [e]
    exact Executed.build (ok3dLaws n env) (Does.create3 env x y z v c1 c2 c3 c4 c4' args (ParamRef.below_of c5))
      (fun o h' s q => ⟨q.1, q.2.1⟩) c6 fun h' f => ExecRefs3.deref_congr fun b hb => f.same b (c6 b hb)
  | newUk n env x y z args a =>
    obtain ⟨c1, c2, c3, c4, c5, c5', c6⟩ := hj
    have e : (Job.newUk n env x y z args a).prog.seq = (UKRef.create n env x y z args >>= fun o =>
        (ukClass n env).execute o a) := by
      show (UKRef.createT n env x y z args >>= fun o => o.executeT n a).seq = _
      simp only [Thr.seq_bind, UKRef.seq_create, UKRef.seq_execute]
    rw [e]
    exact Executed.build (ukLaws n env) (Does.createUK env x y z c1 c2 c3 c4 args (UKRefArgs.below_of c5 c5'))
      (fun o h' s q => ⟨q.1, q.2.1⟩) c6 fun h' f => UKExecRefs.deref_congr fun b hb => f.same b (c6 b hb)
  | newUk3d n env x y z v args a =>
    obtain ⟨c1, c2, c3, c4, c4', c5, c5', c6⟩ := hj
    have e : (Job.newUk3d n env x y z v args a).prog.seq = (UK3DRef.create n env x y z v args >>= fun o =>
        (uk3dClass n env).execute o a) := by
      show (UK3DRef.createT n env x y z v args >>= fun o => o.executeT n a).seq = _
      simp only [Thr.seq_bind, UK3DRef.seq_create, UK3DRef.seq_execute]
    rw [e]
    exact Executed.build (uk3dLaws n env) (Does.createUK3 env x y z v c1 c2 c3 c4 c4' args (UK3DRefArgs.below_of c5 c5'))
      (fun o h' s q => ⟨q.1, q.2.1⟩) c6 fun h' f => UK3DExecRefs.deref_congr fun b hb => f.same b (c6 b hb)

theorem Spec.Job.values_frame {h h' : Heap} {j : Job} (hj : j.Possible h.next) (f : Heap.Frame h.next h h') :
    j.values h' = j.values h := by
  cases j with
  | ok n env o a =>
    obtain ⟨⟨k, hk, ho⟩, ha⟩ := hj
    have e1 : o.deref h' n = o.deref h n := (okLaws n env).frame
      ((okLaws n env).mono (Had.sound (okLaws n env) okNew_sound ho) hk) f
    unfold Job.values
    dsimp only
    rw [e1, ExecRefs.deref_congr fun b hb => f.same b (ha b hb)]
  | ok3d n env o a =>
    obtain ⟨⟨k, hk, ho⟩, ha⟩ := hj
    have e1 : o.deref h' n = o.deref h n := (ok3dLaws n env).frame
      ((ok3dLaws n env).mono (Had.sound (ok3dLaws n env) ok3dNew_sound ho) hk) f
    unfold Job.values
    dsimp only
    rw [e1, ExecRefs3.deref_congr fun b hb => f.same b (ha b hb)]
  | uk n env o a =>
    obtain ⟨⟨k, hk, ho⟩, ha⟩ := hj
    have e1 : o.deref h' n = o.deref h n := (ukLaws n env).frame
      ((ukLaws n env).mono (Had.sound (ukLaws n env) ukNew_sound ho) hk) f
    unfold Job.values
    dsimp only
    rw [e1, UKExecRefs.deref_congr fun b hb => f.same b (ha b hb)]
  | uk3d n env o a =>
    obtain ⟨⟨k, hk, ho⟩, ha⟩ := hj
    have e1 : o.deref h' n = o.deref h n := (uk3dLaws n env).frame
      ((uk3dLaws n env).mono (Had.sound (uk3dLaws n env) uk3dNew_sound ho) hk) f
    unfold Job.values
    dsimp only
    rw [e1, UK3DExecRefs.deref_congr fun b hb => f.same b (ha b hb)]
  | newOk n env x y z args a =>
    obtain ⟨c1, c2, c3, c4, c5, c6⟩ := hj
    have ea : args.deref h' = args.deref h := by
      unfold OKRefArgs.deref; rw [ParamRef.deref_frame f (ParamRef.below_of c5)]
    unfold Job.values
    dsimp only
    rw [ea, ExecRefs.deref_congr fun b hb => f.same b (c6 b hb), x.vec_frame f c2, y.vec_frame f c3, z.vec_frame f c4]
  | newOk3d n env x y z v args a =>
    obtain ⟨c1, c2, c3, c4, c4', c5, c6⟩ := hj
    have ea : args.deref h' = args.deref h := by
      unfold OK3DRefArgs.deref; rw [ParamRef.deref_frame f (ParamRef.below_of c5)]
    unfold Job.values
    dsimp only
    rw [ea, ExecRefs3.deref_congr fun b hb => f.same b (c6 b hb), x.vec_frame f c2, y.vec_frame f c3, z.vec_frame f c4,
      v.vec_frame f c4']
  | newUk n env x y z args a =>
    obtain ⟨c1, c2, c3, c4, c5, c5', c6⟩ := hj
    unfold Job.values
    dsimp only
    rw [UKRefArgs.deref_frame f (UKRefArgs.below_of c5 c5'), UKExecRefs.deref_congr fun b hb => f.same b (c6 b hb),
      x.vec_frame f c2, y.vec_frame f c3, z.vec_frame f c4]
  | newUk3d n env x y z v args a =>
    obtain ⟨c1, c2, c3, c4, c4', c5, c5', c6⟩ := hj
    unfold Job.values
    dsimp only
    rw [UK3DRefArgs.deref_frame f (UK3DRefArgs.below_of c5 c5'), UK3DExecRefs.deref_congr fun b hb => f.same b (c6 b hb),
      x.vec_frame f c2, y.vec_frame f c3, z.vec_frame f c4, v.vec_frame f c4']

theorem Spec.Job.Possible.mono {k k' : ℕ} {j : Job} (hj : j.Possible k) (hk : k ≤ k') : j.Possible k' := by
  cases j with
  | ok n env o a =>
    obtain ⟨⟨m, hm, ho⟩, ha⟩ := hj
    exact ⟨⟨m, hm.trans hk, ho⟩, fun b hb => (ha b hb).trans_le hk⟩
  | ok3d n env o a =>
    obtain ⟨⟨m, hm, ho⟩, ha⟩ := hj
    exact ⟨⟨m, hm.trans hk, ho⟩, fun b hb => (ha b hb).trans_le hk⟩
  | uk n env o a =>
    obtain ⟨⟨m, hm, ho⟩, ha⟩ := hj
    exact ⟨⟨m, hm.trans hk, ho⟩, fun b hb => (ha b hb).trans_le hk⟩
  | uk3d n env o a =>
    obtain ⟨⟨m, hm, ho⟩, ha⟩ := hj
    exact ⟨⟨m, hm.trans hk, ho⟩, fun b hb => (ha b hb).trans_le hk⟩
  | newOk n env x y z args a =>
    obtain ⟨c1, c2, c3, c4, c5, c6⟩ := hj
    exact ⟨c1, by omega, by omega, by omega, fun b hb => (c5 b hb).trans_le hk, fun b hb => (c6 b hb).trans_le hk⟩
  | newOk3d n env x y z v args a =>
    obtain ⟨c1, c2, c3, c4, c4', c5, c6⟩ := hj
    exact ⟨c1, by omega, by omega, by omega, by omega, fun b hb => (c5 b hb).trans_le hk,
      fun b hb => (c6 b hb).trans_le hk⟩
  | newUk n env x y z args a =>
    obtain ⟨c1, c2, c3, c4, c5, c5', c6⟩ := hj
    exact ⟨c1, by omega, by omega, by omega, fun b hb => (c5 b hb).trans_le hk, fun b hb => (c5' b hb).trans_le hk,
      fun b hb => (c6 b hb).trans_le hk⟩
  | newUk3d n env x y z v args a =>
    obtain ⟨c1, c2, c3, c4, c4', c5, c5', c6⟩ := hj
    exact ⟨c1, by omega, by omega, by omega, by omega, fun b hb => (c5 b hb).trans_le hk,
      fun b hb => (c5' b hb).trans_le hk, fun b hb => (c6 b hb).trans_le hk⟩

/-- Alone, a worker gets from all its calls what they return on values. -/
theorem worker_seq {h₀ : Heap} {l : List Job} (hl : ∀ j ∈ l, j.Possible h₀.next) {h : Heap}
    (f : Heap.Frame h₀.next h₀ h) :
    ∃ rs h', (worker l).seq h = (.ok rs, h') ∧ Heap.Frame h.next h h' ∧
      (∀ r ∈ rs, ∀ b ∈ resultBuffers r, h.next ≤ b ∧ b < h'.next) ∧
      rs.map (fun r => r.map fun x => x.deref h') = l.map (Job.values h₀) := by
  induction l generalizing h with
  | nil => exact ⟨[], h, rfl, .refl _ _, (fun r hr => (List.not_mem_nil hr).elim), rfl⟩
  | cons j l ih =>
    have hj := hl j List.mem_cons_self
    have E := Job.executed (hj.mono f.next_le)
    rw [Job.values_frame hj f] at E
    generalize hr : j.prog.seq h = r at E
    obtain ⟨r, h1⟩ := r
    have f1 : Heap.Frame h₀.next h₀ h1 := f.trans (E.frame.mono f.next_le)
    obtain ⟨rs, h2, q1, q2, q3, q4⟩ := ih (fun x hx => hl x (List.mem_cons_of_mem _ hx)) f1
    refine ⟨r :: rs, h2, ?_, E.frame.trans (q2.mono E.frame.next_le), ?_, ?_⟩
    · have e : (worker (j :: l)).seq = (j.prog.attempt.seq >>= fun r => (worker l).seq >>= fun rs =>
          (pure (r :: rs) : H _)) := by
        show (j.prog.attempt >>= fun r => worker l >>= fun rs => pure (r :: rs)).seq = _
        simp only [Thr.seq_bind, Thr.seq_pure]
      have e1 : j.prog.attempt.seq h = (.ok r, h1) := by rw [Thr.seq_attempt, hr]
      rw [e, H.bind_of_ok e1, H.bind_of_ok q1]
      rfl
    · intro x hx b hb
      rcases List.mem_cons.1 hx with rfl | hx
      · exact ⟨(E.new b hb).1, (E.new b hb).2.trans_le q2.next_le⟩
      · exact ⟨E.frame.next_le.trans (q3 x hx b hb).1, (q3 x hx b hb).2⟩
    · rw [List.map_cons, List.map_cons, q4, ← E.outcome]
      congr 1
      cases r with
      | error e => rfl
      | ok x =>
        refine congrArg Except.ok (ResultRef.deref_congr fun b hb => ?_)
        exact q2.same b (E.new b hb).2

end
end PyKrige
