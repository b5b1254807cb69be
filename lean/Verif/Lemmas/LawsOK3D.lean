import Verif.Lemmas.Heap3Upd

/-! `OrdinaryKriging3D` on memory does what it does on values. -/

namespace PyKrige
noncomputable section
open Spec

/-- The buffers of the data arrays of an object. -/
def OK3DRef.own (o : OK3DRef) : Set ℕ :=
  {b | b = o.X_ORIG.buf ∨ b = o.Y_ORIG.buf ∨ b = o.Z_ORIG.buf ∨ b = o.VALUES.buf ∨ b = o.X_ADJUSTED.buf ∨
    b = o.Y_ADJUSTED.buf ∨ b = o.Z_ADJUSTED.buf}

def ok3dLaws (n : ℕ) (env : Env) :
    Laws (ok3dClass n env) (OK3D n) (OK3D.update env) (fun s a => OK3D.execute env s a) where
  deref h o := o.deref h n
  own := OK3DRef.own
  ps o := o.params.buf
  Sound o k := o.Sound n k
  own_lt := by
    rintro o k b ho (rfl | rfl | rfl | rfl | rfl | rfl | rfl)
    · exact ho.live.xo
    · exact ho.live.yo
    · exact ho.live.zo
    · exact ho.live.z
    · exact ho.live.xa
    · exact ho.live.ya
    · exact ho.live.za
  ps_lt ho := ho.live.ps
  mono ho hk := ⟨ho.live.mono hk, ho.xlen, ho.xfloat⟩
  congr := by
    intro h h' o h1 h2
    show o.deref h' n = o.deref h n
    unfold OK3DRef.deref
    rw [Arr.vec_congr (h1 _ (Or.inl rfl)), Arr.vec_congr (h1 _ (Or.inr (Or.inl rfl))),
      Arr.vec_congr (h1 _ (Or.inr (Or.inr (Or.inl rfl)))),
      Arr.vec_congr (h1 _ (Or.inr (Or.inr (Or.inr (Or.inl rfl))))),
      Arr.vec_congr (h1 _ (Or.inr (Or.inr (Or.inr (Or.inr (Or.inl rfl)))))),
      Arr.vec_congr (h1 _ (Or.inr (Or.inr (Or.inr (Or.inr (Or.inr (Or.inl rfl))))))),
      Arr.vec_congr (h1 _ (Or.inr (Or.inr (Or.inr (Or.inr (Or.inr (Or.inr rfl))))))), Arr.list_congr h2]
  exec := by
    intro h o a ho ha
    exact .of (Does.execute3 n env o ho.live a (ha _ (Or.inl rfl)) (ha _ (Or.inr (Or.inl rfl)))
      (ha _ (Or.inr (Or.inr (Or.inl rfl)))) fun m hm => ha _ (Or.inr (Or.inr (Or.inr ⟨m, hm, rfl⟩))))
  upd_frame ho hp := (OK3DRef.update_updated env _ ho _ (ParamRef.below_of hp)).frame
  upd := by
    intro h o u ho hp
    have U := OK3DRef.update_updated env _ ho _ (ParamRef.below_of hp)
    exact Prod.ext U.outcome U.object
  upd_sound ho hp := (OK3DRef.update_updated env _ ho _ (ParamRef.below_of hp)).sound
  upd_own := by
    intro h o u ho hp
    have U := (OK3DRef.update_updated env _ ho _ (ParamRef.below_of hp)).keeps
    rintro b (rfl | rfl | rfl | rfl | rfl | rfl | rfl)
    · exact Or.inl (Or.inl (by rw [U.xo]))
    · exact Or.inl (Or.inr (Or.inl (by rw [U.yo])))
    · exact Or.inl (Or.inr (Or.inr (Or.inl (by rw [U.zo]))))
    · exact Or.inl (Or.inr (Or.inr (Or.inr (Or.inl (by rw [U.z])))))
    · rcases U.xa with e | e
      · exact Or.inr e
      · exact Or.inl (Or.inr (Or.inr (Or.inr (Or.inr (Or.inl (by rw [e]))))))
    · rcases U.ya with e | e
      · exact Or.inr e
      · exact Or.inl (Or.inr (Or.inr (Or.inr (Or.inr (Or.inr (Or.inl (by rw [e])))))))
    · rcases U.za with e | e
      · exact Or.inr e
      · exact Or.inl (Or.inr (Or.inr (Or.inr (Or.inr (Or.inr (Or.inr (by rw [e])))))))
  upd_ps := by
    intro h o u ho hp
    have U := OK3DRef.update_updated env _ ho _ (ParamRef.below_of hp)
    rcases U.list with e | e
    · exact Or.inl (congrArg Arr.buf e)
    · exact Or.inr e.buf

/-- The constructor. -/
theorem ok3dLaws_built {n : ℕ} (env : Env) {h h' : Heap} {x y z val : Arr} (hx : x.cols = n)
    (bx : x.buf < h.next) (byy : y.buf < h.next) (bz : z.buf < h.next) (bv : val.buf < h.next) {args : OK3DRefArgs}
    (hp : ∀ b ∈ listBuffers args.paramRef, b < h.next) {o : OK3DRef}
    (hc : OK3DRef.create n env x y z val args h = (.ok o, h')) :
    (ok3dLaws n env).Built h args.paramRef o h' ∧
      OK3D.create env (x.vec h n) (y.vec h n) (z.vec h n) (val.vec h n) (args.deref h) = .ok (o.deref h' n) := by
  rcases (Does.create3 (h := h) env x y z val hx bx byy bz bv args (ParamRef.below_of hp)).cases with
    ⟨e, h2, r1, r2, f⟩ | ⟨o2, h2, s, r1, r2, f, q1, q2, q3, q4⟩
  · rw [hc] at r1; cases r1
  · rw [hc] at r1
    cases r1
    refine ⟨⟨f, q2, ?_, q4.buf⟩, by rw [r2, q1]⟩
    rintro b (rfl | rfl | rfl | rfl | rfl | rfl | rfl)
    · exact q3.xo
    · exact q3.yo
    · exact q3.zo
    · exact q3.z
    · exact q3.xa
    · exact q3.ya
    · exact q3.za

end
end PyKrige
