import Verif.Lemmas.HeapUpdate
import Verif.Lemmas.Session

/-! `OrdinaryKriging` on memory does what it does on values. -/

namespace PyKrige
noncomputable section
open Spec

theorem ParamRef.below_of {p : ParamRef} {k : ℕ} (h : ∀ b ∈ listBuffers p, b < k) : p.Below k := by
  cases p with
  | list a => exact h _ rfl
  | none => trivial
  | dict d => trivial
  | other => trivial

theorem Executed.of {h : Heap} {m : H ResultRef} {v : Py ExecResult} (d : Does h.next m h v (Returned h.next)) :
    Executed h (m h) v := by
  rcases d.cases with ⟨e, h', r1, r2, f⟩ | ⟨r, h', v, r1, r2, f, q⟩
  · rw [r1, r2]
    exact ⟨f, rfl, fun b hb => hb.elim⟩
  · rw [r1, r2]
    refine ⟨f, congrArg Except.ok q.values, ?_⟩
    rintro b (rfl | rfl | ⟨m, hm, rfl⟩)
    · exact q.newZ
    · exact q.newSs
    · exact q.newMask m hm

theorem Arr.vec_congr {h h' : Heap} {a : Arr} (e : h'.buf a.buf = h.buf a.buf) (n : ℕ) : a.vec h' n = a.vec h n := by
  unfold Arr.vec Arr.get; rw [e]

theorem Arr.list_congr {h h' : Heap} {a : Arr} (e : h'.buf a.buf = h.buf a.buf) : a.list h' = a.list h := by
  unfold Arr.list Arr.get; rw [e]

/-- The buffers of the data arrays of an object. -/
def OKRef.own (o : OKRef) : Set ℕ :=
  {b | b = o.X_ORIG.buf ∨ b = o.Y_ORIG.buf ∨ b = o.Z.buf ∨ b = o.X_ADJUSTED.buf ∨ b = o.Y_ADJUSTED.buf}

theorem KeepsList.buf {p : ParamRef} {a : Arr} {k : ℕ} (h : KeepsList p a k) : k ≤ a.buf ∨ a.buf ∈ listBuffers p := by
  rcases h with h | h
  · exact Or.inl h
  · exact Or.inr (by rw [h]; rfl)

def okLaws (n : ℕ) (env : Env) : Laws (okClass n env) (OK n) (OK.update env) (fun s a => OK.execute env s a) where
  deref h o := o.deref h n
  own := OKRef.own
  ps o := o.params.buf
  Sound o k := o.Sound n k
  own_lt := by
    rintro o k b ho (rfl | rfl | rfl | rfl | rfl)
    · exact ho.live.xo
    · exact ho.live.yo
    · exact ho.live.z
    · exact ho.live.xa
    · exact ho.live.ya
  ps_lt ho := ho.live.ps
  mono ho hk := ⟨ho.live.mono hk, ho.xlen, ho.xfloat⟩
  congr := by
    intro h h' o h1 h2
    show o.deref h' n = o.deref h n
    unfold OKRef.deref
    rw [Arr.vec_congr (h1 _ (Or.inl rfl)), Arr.vec_congr (h1 _ (Or.inr (Or.inl rfl))),
      Arr.vec_congr (h1 _ (Or.inr (Or.inr (Or.inl rfl)))),
      Arr.vec_congr (h1 _ (Or.inr (Or.inr (Or.inr (Or.inl rfl))))),
      Arr.vec_congr (h1 _ (Or.inr (Or.inr (Or.inr (Or.inr rfl))))), Arr.list_congr h2]
  exec := by
    intro h o a ho ha
    exact .of (Does.execute n env o ho.live a (ha _ (Or.inl rfl)) (ha _ (Or.inr (Or.inl rfl)))
      fun m hm => ha _ (Or.inr (Or.inr ⟨m, hm, rfl⟩)))
  upd_frame ho hp := (OKRef.update_updated env _ ho _ (ParamRef.below_of hp)).frame
  upd := by
    intro h o u ho hp
    have U := OKRef.update_updated env _ ho _ (ParamRef.below_of hp)
    exact Prod.ext U.outcome U.object
  upd_sound ho hp := (OKRef.update_updated env _ ho _ (ParamRef.below_of hp)).sound
  upd_own := by
    intro h o u ho hp
    have U := OKRef.update_updated env _ ho _ (ParamRef.below_of hp)
    rintro b (rfl | rfl | rfl | rfl | rfl)
    · exact Or.inl (Or.inl (by rw [U.xo]))
    · exact Or.inl (Or.inr (Or.inl (by rw [U.yo])))
    · exact Or.inl (Or.inr (Or.inr (Or.inl (by rw [U.z]))))
    · rcases U.xa with e | e | e
      · exact Or.inr e
      · exact Or.inl (Or.inr (Or.inr (Or.inr (Or.inl (by rw [e])))))
      · exact Or.inl (Or.inl (by rw [e]))
    · rcases U.ya with e | e | e
      · exact Or.inr e
      · exact Or.inl (Or.inr (Or.inr (Or.inr (Or.inr (by rw [e])))))
      · exact Or.inl (Or.inr (Or.inl (by rw [e])))
  upd_ps := by
    intro h o u ho hp
    have U := OKRef.update_updated env _ ho _ (ParamRef.below_of hp)
    rcases U.list with e | e
    · exact Or.inl (congrArg Arr.buf e)
    · exact Or.inr e.buf

/-- The constructor. -/
theorem okLaws_built {n : ℕ} (env : Env) {h h' : Heap} {x y z : Arr} (hx : x.cols = n)
    (bx : x.buf < h.next) (byy : y.buf < h.next) (bz : z.buf < h.next) {args : OKRefArgs}
    (hp : ∀ b ∈ listBuffers args.paramRef, b < h.next) {o : OKRef}
    (hc : OKRef.create n env x y z args h = (.ok o, h')) :
    (okLaws n env).Built h args.paramRef o h' ∧
      OK.create env (x.vec h n) (y.vec h n) (z.vec h n) (args.deref h) = .ok (o.deref h' n) := by
  rcases (Does.create (h := h) env x y z hx bx byy bz args (ParamRef.below_of hp)).cases with
    ⟨e, h2, r1, r2, f⟩ | ⟨o2, h2, s, r1, r2, f, q1, q2, q3, q4⟩
  · rw [hc] at r1; cases r1
  · rw [hc] at r1
    cases r1
    refine ⟨⟨f, q2, ?_, q4.buf⟩, by rw [r2, q1]⟩
    rintro b (rfl | rfl | rfl | rfl | rfl)
    · exact q3.xo
    · exact q3.yo
    · exact q3.z
    · exact q3.xa
    · exact q3.ya

end
end PyKrige
