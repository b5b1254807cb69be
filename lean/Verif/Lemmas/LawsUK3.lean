import Verif.Lemmas.HeapUK3

/-! `UniversalKriging3D` on memory does what it does on values. -/

namespace PyKrige
noncomputable section
open Spec

theorem UK3DRefArgs.below_of {args : UK3DRefArgs} {k : ℕ} (hp : ∀ b ∈ listBuffers args.paramRef, b < k)
    (hd : ∀ b ∈ driftBuffers3 args, b < k) : args.Below k where
  params := ParamRef.below_of hp
  spec l hl a ha := hd _ ⟨l, hl, a, ha, rfl⟩

/-- What `update_variogram_model` does. -/
theorem UK3DRef.update_updated {n : ℕ} (env : Env) {h : Heap} (o : UK3DRef) (ho : o.Sound n h.next) (u : Update3DRef)
    (hp : u.paramRef.Below h.next) :
    Updated3 n h o.core u.paramRef (OK3DRef.update n env o.core u h) (OK3D.update env (o.core.deref h n) (u.deref h)) ∧
    UK3D.update env (o.deref h n) (u.deref h) =
      ((UK3DRef.update n env o u h).1.1, (UK3DRef.update n env o u h).1.2.deref (UK3DRef.update n env o u h).2 n) ∧
    (UK3DRef.update n env o u h).1.2.Sound n (UK3DRef.update n env o u h).2.next := by
  have U := OK3DRef.update_updated env o.core ho.core u hp
  have e1 := OK3D.update_toUK env (o.core.deref h n) (o.drift.deref h n) (u.deref h)
  refine ⟨U, ?_, ⟨U.sound, fun b hb => (ho.drift b hb).trans_le U.frame.next_le⟩⟩
  refine e1.trans (Prod.ext U.outcome.symm ?_)
  show _ = ((OK3DRef.update n env o.core u h).1.2.deref (OK3DRef.update n env o.core u h).2 n).toUK
    (o.drift.deref (OK3DRef.update n env o.core u h).2 n)
  rw [U.object, UK3DDriftRef.deref_congr fun b hb => U.frame.same _ (ho.drift b hb)]

def uk3dLaws (n : ℕ) (env : Env) :
    Laws (uk3dClass n env) (UK3D n) (UK3D.update env) (fun s a => UK3D.execute s a) where
  deref h o := o.deref h n
  own o := o.core.own ∪ o.drift.bufs
  ps o := o.core.params.buf
  Sound o k := o.Sound n k
  own_lt := by
    rintro o k b ho (hb | hb)
    · exact (ok3dLaws n env).own_lt ho.core hb
    · exact ho.drift b hb
  ps_lt ho := ho.core.live.ps
  mono ho hk := ⟨⟨ho.core.live.mono hk, ho.core.xlen, ho.core.xfloat⟩, fun b hb => (ho.drift b hb).trans_le hk⟩
  congr := by
    intro h h' o h1 h2
    show (o.core.deref h' n).toUK _ = (o.core.deref h n).toUK _
    rw [show o.core.deref h' n = o.core.deref h n from
        (ok3dLaws n env).congr (o := o.core) (fun b hb => h1 b (Or.inl hb)) h2,
      UK3DDriftRef.deref_congr fun b hb => h1 b (Or.inr hb)]
  exec := by
    intro h o a ho ha
    exact .of (Does.executeUK3 n o ho a (ha _ (Or.inl (Or.inl rfl))) (ha _ (Or.inl (Or.inr (Or.inl rfl))))
      (ha _ (Or.inl (Or.inr (Or.inr (Or.inl rfl)))))
      (fun m hm => ha _ (Or.inl (Or.inr (Or.inr (Or.inr ⟨m, hm, rfl⟩))))) fun b hb => ha _ (Or.inr hb))
  upd_frame ho hp := (UK3DRef.update_updated env _ ho _ (ParamRef.below_of hp)).1.frame
  upd ho hp := (UK3DRef.update_updated env _ ho _ (ParamRef.below_of hp)).2.1.symm
  upd_sound ho hp := (UK3DRef.update_updated env _ ho _ (ParamRef.below_of hp)).2.2
  upd_own := by
    intro h o u ho hp b hb
    rcases hb with hb | hb
    · rcases (ok3dLaws n env).upd_own (o := o.core) (u := u) ho.core hp b hb with h1 | h1
      · exact Or.inl (Or.inl h1)
      · exact Or.inr h1
    · exact Or.inl (Or.inr hb)
  upd_ps := by
    intro h o u ho hp
    exact (ok3dLaws n env).upd_ps (o := o.core) (u := u) ho.core hp

/-- The constructor. -/
theorem uk3dLaws_built {n : ℕ} (env : Env) {h h' : Heap} {x y z val : Arr} (hx : x.cols = n)
    (bx : x.buf < h.next) (byy : y.buf < h.next) (bz : z.buf < h.next) (bv : val.buf < h.next) {args : UK3DRefArgs}
    (hp : ∀ b ∈ listBuffers args.paramRef, b < h.next) (hd : ∀ b ∈ driftBuffers3 args, b < h.next) {o : UK3DRef}
    (hc : UK3DRef.create n env x y z val args h = (.ok o, h')) :
    (uk3dLaws n env).Built h args.paramRef o h' ∧
      UK3D.create env (x.vec h n) (y.vec h n) (z.vec h n) (val.vec h n) (args.deref h) = .ok (o.deref h' n) := by
  rcases (Does.createUK3 (h := h) env x y z val hx bx byy bz bv args (UK3DRefArgs.below_of hp hd)).cases with
    ⟨e, h2, r1, r2, f⟩ | ⟨o2, h2, s, r1, r2, f, q1, q2, q3, q4, q5⟩
  · rw [hc] at r1; cases r1
  · rw [hc] at r1
    cases r1
    refine ⟨⟨f, q2, ?_, q5.buf⟩, by rw [r2, q1]⟩
    rintro b ((rfl | rfl | rfl | rfl | rfl | rfl | rfl) | hb)
    · exact q3.xo
    · exact q3.yo
    · exact q3.zo
    · exact q3.z
    · exact q3.xa
    · exact q3.ya
    · exact q3.za
    · exact q4 b hb

end
end PyKrige
