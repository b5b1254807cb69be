import Verif.Lemmas.HeapUKExec

/-! `UniversalKriging` on memory does what it does on values. -/

namespace PyKrige
noncomputable section
open Spec

theorem UKRefArgs.below_of {args : UKRefArgs} {k : ℕ} (hp : ∀ b ∈ listBuffers args.paramRef, b < k)
    (hd : ∀ b ∈ driftBuffers args, b < k) : args.Below k where
  params := ParamRef.below_of hp
  wells a ha := hd _ (Or.inl ⟨a, ha, rfl⟩)
  ext a ha := hd _ (Or.inr (Or.inl ⟨a, ha, rfl⟩))
  extX a ha := hd _ (Or.inr (Or.inr (Or.inl ⟨a, ha, rfl⟩)))
  extY a ha := hd _ (Or.inr (Or.inr (Or.inr (Or.inl ⟨a, ha, rfl⟩))))
  spec l hl a ha := hd _ (Or.inr (Or.inr (Or.inr (Or.inr ⟨l, hl, a, ha, rfl⟩))))

/-- What `update_variogram_model` does. -/
theorem UKRef.update_updated {n : ℕ} (env : Env) {h : Heap} (o : UKRef) (ho : o.Sound n h.next) (u : OKRefUpdate)
    (hp : u.paramRef.Below h.next) :
    Updated n h o.core u.paramRef (OKRef.update n env o.core u h) (OK.update env (o.core.deref h n) (u.deref h)) ∧
    UK.update env (o.deref h n) (u.deref h) =
      ((UKRef.update n env o u h).1.1, (UKRef.update n env o u h).1.2.deref (UKRef.update n env o u h).2 n) ∧
    (UKRef.update n env o u h).1.2.Sound n (UKRef.update n env o u h).2.next := by
  have U := OKRef.update_updated env o.core ho.core u hp
  obtain ⟨e1, e2⟩ := OK.update_toUK env (o.core.deref h n) ho.euclidean (o.drift.deref h n) (u.deref h)
  have ec : (OKRef.update n env o.core u h).1.2.coordinatesType = "euclidean" := by
    have : ((OKRef.update n env o.core u h).1.2.deref (OKRef.update n env o.core u h).2 n).coordinatesType = "euclidean" := by
      rw [U.object]; exact e2
    exact this
  refine ⟨U, ?_, ⟨U.sound, ec, fun b hb => (ho.drift b hb).trans_le U.frame.next_le⟩⟩
  refine e1.trans (Prod.ext U.outcome.symm ?_)
  show _ = ((OKRef.update n env o.core u h).1.2.deref (OKRef.update n env o.core u h).2 n).toUK
    (o.drift.deref (OKRef.update n env o.core u h).2 n)
  rw [U.object, UKDriftRef.deref_congr fun b hb => U.frame.same _ (ho.drift b hb)]

def ukLaws (n : ℕ) (env : Env) : Laws (ukClass n env) (UK n) (UK.update env) (fun s a => UK.execute s a) where
  deref h o := o.deref h n
  own o := o.core.own ∪ o.drift.bufs
  ps o := o.core.params.buf
  Sound o k := o.Sound n k
  own_lt := by
    rintro o k b ho (hb | hb)
    · exact (okLaws n env).own_lt ho.core hb
    · exact ho.drift b hb
  ps_lt ho := ho.core.live.ps
  mono ho hk := ⟨⟨ho.core.live.mono hk, ho.core.xlen, ho.core.xfloat⟩, ho.euclidean,
    fun b hb => (ho.drift b hb).trans_le hk⟩
  congr := by
    intro h h' o h1 h2
    show (o.core.deref h' n).toUK _ = (o.core.deref h n).toUK _
    rw [show o.core.deref h' n = o.core.deref h n from
        (okLaws n env).congr (o := o.core) (fun b hb => h1 b (Or.inl hb)) h2,
      UKDriftRef.deref_congr fun b hb => h1 b (Or.inr hb)]
  exec := by
    intro h o a ho ha
    exact .of (Does.executeUK n o ho a (ha _ (Or.inl (Or.inl rfl))) (ha _ (Or.inl (Or.inr (Or.inl rfl))))
      (fun m hm => ha _ (Or.inl (Or.inr (Or.inr ⟨m, hm, rfl⟩)))) fun b hb => ha _ (Or.inr hb))
  upd_frame ho hp := (UKRef.update_updated env _ ho _ (ParamRef.below_of hp)).1.frame
  upd ho hp := (UKRef.update_updated env _ ho _ (ParamRef.below_of hp)).2.1.symm
  upd_sound ho hp := (UKRef.update_updated env _ ho _ (ParamRef.below_of hp)).2.2
  upd_own := by
    intro h o u ho hp b hb
    rcases hb with hb | hb
    · rcases (okLaws n env).upd_own (o := o.core) (u := u) ho.core hp b hb with h1 | h1
      · exact Or.inl (Or.inl h1)
      · exact Or.inr h1
    · exact Or.inl (Or.inr hb)
  upd_ps := by
    intro h o u ho hp
    exact (okLaws n env).upd_ps (o := o.core) (u := u) ho.core hp

/-- The constructor. -/
theorem ukLaws_built {n : ℕ} (env : Env) {h h' : Heap} {x y z : Arr} (hx : x.cols = n)
    (bx : x.buf < h.next) (byy : y.buf < h.next) (bz : z.buf < h.next) {args : UKRefArgs}
    (hp : ∀ b ∈ listBuffers args.paramRef, b < h.next) (hd : ∀ b ∈ driftBuffers args, b < h.next) {o : UKRef}
    (hc : UKRef.create n env x y z args h = (.ok o, h')) :
    (ukLaws n env).Built h args.paramRef o h' ∧
      UK.create env (x.vec h n) (y.vec h n) (z.vec h n) (args.deref h) = .ok (o.deref h' n) := by
  rcases (Does.createUK (h := h) env x y z hx bx byy bz args (UKRefArgs.below_of hp hd)).cases with
    ⟨e, h2, r1, r2, f⟩ | ⟨o2, h2, s, r1, r2, f, q1, q2, q3, q4, q5⟩
  · rw [hc] at r1; cases r1
  · rw [hc] at r1
    cases r1
    refine ⟨⟨f, q2, ?_, q5.buf⟩, by rw [r2, q1]⟩
    rintro b ((rfl | rfl | rfl | rfl | rfl) | hb)
    · exact q3.xo
    · exact q3.yo
    · exact q3.z
    · exact q3.xa
    · exact q3.ya
    · exact q4 b hb

end
end PyKrige
