import Verif.Lemmas.Heap3
import Verif.Lemmas.LawsOK

/-! The heap programs of the `OrdinaryKriging3D` constructor and of its `update_variogram_model` compute what the model
on values computes. -/

namespace PyKrige
noncomputable section
open Matrix

section
variable {w : ℕ} {h : Heap}

theorem Does.resolveModel3 (hw : w ≤ h.next) (env : Env) (vm : ModelArg) (f : FunArg) (p : ParamRef)
    (hp : p.Below h.next) (an : Aniso3) :
    Does w (OK3DRef.resolveModel env vm f p an) h (OK3D.resolveModel env vm f (p.deref h) an)
      fun r h' v => (∃ P, r.2.2.2.1 = P ∧ P.Below h'.next ∧ (P = p ∨ ∃ a, P = .list a ∧ h.next ≤ a.buf) ∧
        v = (r.1, r.2.1, r.2.2.1, P.deref h', r.2.2.2.2)) := by
  cases vm with
  | name s => exact Does.ret ⟨p, rfl, hp, Or.inl rfl, rfl⟩
  | gstools m =>
    unfold OK3DRef.resolveModel OK3D.resolveModel
    refine Does.liftBind fun _ _ => ?_
    by_cases h1 : m.fieldDim < 3
    · rw [if_pos h1, if_pos h1]; exact ⟨.refl _ _, .error _⟩
    rw [if_neg h1, if_neg h1]
    refine Does.step (Does.newList hw [] false) le_rfl fun b h' f1 ⟨b1, n1, _, _, l1⟩ =>
      Does.ret ⟨_, rfl, ?_, Or.inr ⟨b, rfl, by omega⟩, ?_⟩
    · show b.buf < h'.next
      omega
    · show _ = (_, _, _, ParamArg.list (b.list h'), _)
      rw [l1]

/-- What holds of every object: its arrays exist, the data arrays are arrays of `n` floats. -/
structure OK3DRef.Sound (o : OK3DRef) (n k : ℕ) : Prop where
  live : o.Live k
  xlen : o.X_ORIG.cols = n
  xfloat : o.X_ORIG.isInt = false

/-- What stays of the arrays of an object. -/
structure OK3DRef.Keeps (o o' : OK3DRef) (k : ℕ) : Prop where
  xa : k ≤ o'.X_ADJUSTED.buf ∨ o'.X_ADJUSTED = o.X_ADJUSTED
  ya : k ≤ o'.Y_ADJUSTED.buf ∨ o'.Y_ADJUSTED = o.Y_ADJUSTED
  za : k ≤ o'.Z_ADJUSTED.buf ∨ o'.Z_ADJUSTED = o.Z_ADJUSTED
  xo : o'.X_ORIG = o.X_ORIG
  yo : o'.Y_ORIG = o.Y_ORIG
  zo : o'.Z_ORIG = o.Z_ORIG
  z : o'.VALUES = o.VALUES

theorem OK3DRef.Keeps.rfl {o : OK3DRef} {k : ℕ} : o.Keeps o k :=
  ⟨Or.inr (Eq.refl _), Or.inr (Eq.refl _), Or.inr (Eq.refl _), Eq.refl _, Eq.refl _, Eq.refl _, Eq.refl _⟩

theorem Does.reAniso3 (hw : w ≤ h.next) {n : ℕ} (o : OK3DRef) (ho : o.Sound n h.next) (an : Aniso3) :
    Does w (o.reAniso an) h (.ok ((o.deref h n).reAniso an)) fun o' h' s => o'.deref h' n = s ∧
      o'.Sound n h'.next ∧ o.Keeps o' h.next ∧ o'.params = o.params := by
  unfold OK3DRef.reAniso OK3D.reAniso
  rw [show (o.deref h n).aniso = o.aniso from rfl]
  by_cases h0 : an.scalingY ≠ o.aniso.scalingY ∨ an.scalingZ ≠ o.aniso.scalingZ ∨
      an.angleX ≠ o.aniso.angleX ∨ an.angleY ≠ o.aniso.angleY ∨ an.angleZ ≠ o.aniso.angleZ
  · rw [if_pos h0, if_pos h0]
    refine Does.adjusted3 hw o.X_ORIG o.Y_ORIG o.Z_ORIG _ _ _ _ (by rw [ho.xfloat]; rfl)
      fun A h' f b1 b2 hr hc hint hv => Does.ret ⟨?_, ⟨?_, ho.xlen, ho.xfloat⟩,
        ⟨Or.inl b1, Or.inl b1, Or.inl b1, rfl, rfl, rfl, rfl⟩, rfl⟩
    · have e : ∀ j : Fin 3, (A.T.row j).vec h' n = fun i => adjustPoint3 o.XCENTER o.YCENTER o.ZCENTER an
          (o.X_ORIG.vec h n i) (o.Y_ORIG.vec h n i) (o.Z_ORIG.vec h n i) j :=
        fun j => funext fun i => hv i (by rw [ho.xlen]; exact i.isLt) j
      have e0 := e 0
      have e1 := e 1
      have e2 := e 2
      change (A.T.row 0).vec h' n = _ at e0
      change (A.T.row 1).vec h' n = _ at e1
      change (A.T.row 2).vec h' n = _ at e2
      unfold OK3DRef.deref
      dsimp only
      rw [e0, e1, e2, o.X_ORIG.vec_frame f ho.live.xo, o.Y_ORIG.vec_frame f ho.live.yo,
        o.Z_ORIG.vec_frame f ho.live.zo, o.VALUES.vec_frame f ho.live.z, o.params.list_frame f ho.live.ps]
    · have hl := ho.live.mono f.next_le
      exact ⟨hl.xo, hl.yo, hl.zo, hl.z, b2, b2, b2, hl.ps⟩
  · rw [if_neg h0, if_neg h0]
    exact Does.ret ⟨rfl, ho, .rfl, rfl⟩

/-- The data arrays of the object are in memory that did not exist before `k`. -/
structure OK3DRef.Fresh (o : OK3DRef) (k : ℕ) : Prop where
  xo : k ≤ o.X_ORIG.buf
  yo : k ≤ o.Y_ORIG.buf
  zo : k ≤ o.Z_ORIG.buf
  z : k ≤ o.VALUES.buf
  xa : k ≤ o.X_ADJUSTED.buf
  ya : k ≤ o.Y_ADJUSTED.buf
  za : k ≤ o.Z_ADJUSTED.buf

theorem Does.create3 {n : ℕ} (env : Env) (x y z val : Arr) (hx : x.cols = n) (bx : x.buf < h.next)
    (byy : y.buf < h.next) (bz : z.buf < h.next) (bv : val.buf < h.next) (args : OK3DRefArgs)
    (hp : args.paramRef.Below h.next) :
    Does h.next (OK3DRef.create n env x y z val args) h
      (OK3D.create env (x.vec h n) (y.vec h n) (z.vec h n) (val.vec h n) (args.deref h)) fun o h' s =>
        o.deref h' n = s ∧ o.Sound n h'.next ∧ o.Fresh h.next ∧ KeepsList args.paramRef o.params h.next := by
  unfold OK3DRef.create OK3D.create
  rw [show (args.deref h).pseudoInvType = args.pseudoInvType from rfl,
    show (args.deref h).exactValues = args.exactValues from rfl,
    show (args.deref h).variogramModel = args.variogramModel from rfl,
    show (args.deref h).variogramFunction = args.variogramFunction from rfl,
    show (args.deref h).params = args.paramRef.deref h from rfl,
    show (args.deref h).aniso = args.aniso from rfl,
    show (args.deref h).nlags = args.nlags from rfl,
    show (args.deref h).weight = args.weight from rfl,
    show (args.deref h).pseudoInv = args.pseudoInv from rfl]
  by_cases h1 : args.pseudoInvType ∉ ["pinv", "pinvh"]
  · rw [if_pos h1, if_pos h1]; exact ⟨.refl _ _, .error _⟩
  rw [if_neg h1, if_neg h1]
  cases args.exactValues with
  | notBool => exact ⟨.refl _ _, .error _⟩
  | bool exact =>
  refine Does.bind (w' := h.next) (R := fun a h' b => a = exact ∧ b = exact ∧ h' = h)
    (Does.ret ⟨rfl, rfl, rfl⟩) le_rfl ?_
  rintro ex _ _ - ⟨rfl, hb, hh⟩
  rw [hb, hh]
  clear hb hh
  refine Does.bind (Does.resolveModel3 (le_refl h.next) env _ _ _ hp _) le_rfl ?_
  rintro ⟨name, model, fArg, pArg, an⟩ h2 _ f2 ⟨P, rfl, hP, hPp, rfl⟩
  dsimp only at hP hPp ⊢
  refine Does.liftBind ?_
  rintro ⟨f, fname⟩ -
  dsimp only
  have g2 := f2.next_le
  refine Does.step (Does.copyFloat (le_refl h2.next) x n) g2 fun X h3 f3 ⟨x1, x2, x3, x4, x5⟩ => ?_
  have F3 : Heap.Frame h.next h h3 := f2.trans (f3.mono g2)
  refine Does.step (Does.copyFloat (le_refl h3.next) y n) F3.next_le fun Y h4 f4 ⟨y1, y2, y3, y4, y5⟩ => ?_
  have F4 : Heap.Frame h.next h h4 := F3.trans (f4.mono F3.next_le)
  refine Does.step (Does.copyFloat (le_refl h4.next) z n) F4.next_le fun Z h5 f5 ⟨z1, z2, z3, z4, z5⟩ => ?_
  have F5 : Heap.Frame h.next h h5 := F4.trans (f5.mono F4.next_le)
  refine Does.step (Does.copyFloat (le_refl h5.next) val n) F5.next_le fun V h6 f6 ⟨v1, v2, v3, v4, v5⟩ => ?_
  have F6 : Heap.Frame h.next h h6 := F5.trans (f6.mono F5.next_le)
  refine Does.here ?_
  have eX : X.vec h6 n = x.vec h n := by
    rw [X.vec_frame f6 (by omega), X.vec_frame f5 (by omega), X.vec_frame f4 (by omega), x5, x.vec_frame f2 bx]
  have eY : Y.vec h6 n = y.vec h n := by
    rw [Y.vec_frame f6 (by omega), Y.vec_frame f5 (by omega), y5, y.vec_frame F3 byy]
  have eZ : Z.vec h6 n = z.vec h n := by rw [Z.vec_frame f6 (by omega), z5, z.vec_frame F4 bz]
  have eV : V.vec h6 n = val.vec h n := by rw [v5, val.vec_frame F5 bv]
  have hc : X.cols = n := by rw [x3, hx]
  rw [← eX, ← eY, ← eZ]
  refine Does.liftBind fun xc _ => Does.liftBind fun yc _ => Does.liftBind fun zc _ => ?_
  refine Does.adjusted3 F6.next_le X Y Z xc yc zc an (by rw [x4]; rfl) fun A h7 f7 b1 b2 hr hcl hint hv => ?_
  have F7 : Heap.Frame h.next h h7 := F6.trans (f7.mono F6.next_le)
  have f26 : Heap.Frame h2.next h2 h6 :=
    ((f3.trans (f4.mono f3.next_le)).trans (f5.mono (f3.next_le.trans f4.next_le))).trans
      (f6.mono (f3.next_le.trans (f4.next_le.trans f5.next_le)))
  have f27 : Heap.Frame h2.next h2 h7 := f26.trans (f7.mono f26.next_le)
  have hadj : ∀ j : Fin 3, ∀ i : Fin n, (A.T.row j).vec h7 n i =
      adjustPoint3 xc yc zc an (X.vec h6 n i) (Y.vec h6 n i) (Z.vec h6 n i) j :=
    fun j i => hv i (by rw [hc]; exact i.isLt) j
  generalize hXA : A.T.row 0 = XA
  generalize hYA : A.T.row 1 = YA
  generalize hZA : A.T.row 2 = ZA
  have bXA : XA.buf = A.buf := by rw [← hXA]; rfl
  have bYA : YA.buf = A.buf := by rw [← hYA]; rfl
  have bZA : ZA.buf = A.buf := by rw [← hZA]; rfl
  have eXA : ∀ i : Fin n, XA.vec h7 n i =
      adjustPoint3 xc yc zc an (X.vec h6 n i) (Y.vec h6 n i) (Z.vec h6 n i) 0 := fun i => by rw [← hXA]; exact hadj 0 i
  have eYA : ∀ i : Fin n, YA.vec h7 n i =
      adjustPoint3 xc yc zc an (X.vec h6 n i) (Y.vec h6 n i) (Z.vec h6 n i) 1 := fun i => by rw [← hYA]; exact hadj 1 i
  have eZA : ∀ i : Fin n, ZA.vec h7 n i =
      adjustPoint3 xc yc zc an (X.vec h6 n i) (Y.vec h6 n i) (Z.vec h6 n i) 2 := fun i => by rw [← hZA]; exact hadj 2 i
  have hP7 : pArg.deref h7 = pArg.deref h2 := ParamRef.deref_frame f27 hP
  rw [← hP7]
  refine Does.bind (Does.makeList (le_refl h7.next) name pArg (hP.mono f27.next_le)) F7.next_le ?_
  rintro vp h8 _ f8 ⟨rfl, w2⟩
  have F8 : Heap.Frame h.next h h8 := F7.trans (f8.mono F7.next_le)
  refine Does.here ?_
  have g7 := f7.next_le
  have g8 := f8.next_le
  have ePts : ∀ {h' : Heap}, Heap.Frame h7.next h7 h' → pointsOf3 h' n XA YA ZA =
      fun i => adjustPoint3 xc yc zc an (X.vec h6 n i) (Y.vec h6 n i) (Z.vec h6 n i) := by
    intro h' fr
    funext i j
    unfold pointsOf3
    rw [XA.vec_frame fr (by omega), YA.vec_frame fr (by omega), ZA.vec_frame fr (by omega), eXA, eYA, eZA]
    fin_cases j <;> rfl
  have eV' : ∀ {h' : Heap}, Heap.Frame h7.next h7 h' → V.vec h' n = val.vec h n := by
    intro h' fr
    rw [V.vec_frame fr (by omega), V.vec_frame f7 (by omega), eV]
  rw [ePts f8, eV' f8]
  refine Does.bind (Does.initialize (le_refl h8.next) env _ _ name vp (fun a ha => (w2 a ha).1) f _ _ _)
    F8.next_le ?_
  rintro ⟨lags, ps⟩ h9 ⟨lags', psV⟩ f9 ⟨i1, i2, i3, i4⟩
  dsimp only at i1 i2 i3 i4 ⊢
  obtain rfl := i1
  obtain rfl := i2
  have g9 := f9.next_le
  have F9 : Heap.Frame h.next h h9 := F8.trans (f9.mono F8.next_le)
  refine Does.here ?_
  have f79 : Heap.Frame h7.next h7 h9 := f8.trans (f9.mono g8)
  rw [ePts f79, eV' f79]
  refine Does.liftBind fun st _ => ?_
  have g6 : h.next ≤ h6.next := F6.next_le
  refine Does.ret ⟨?_, ⟨⟨?_, ?_, ?_, ?_, ?_, ?_, ?_, i3⟩, hc, x4⟩, ⟨?_, ?_, ?_, ?_, ?_, ?_, ?_⟩, ?_⟩
  · unfold OK3DRef.deref
    dsimp only
    rw [X.vec_frame f79 (by omega), X.vec_frame f7 (by omega), Y.vec_frame f79 (by omega),
      Y.vec_frame f7 (by omega), Z.vec_frame f79 (by omega), Z.vec_frame f7 (by omega), eV' f79,
      XA.vec_frame f79 (by omega), YA.vec_frame f79 (by omega), ZA.vec_frame f79 (by omega),
      funext eXA, funext eYA, funext eZA]
  all_goals try (dsimp only; omega)
  unfold KeepsList
  rcases i4 with i | i
  · exact Or.inl (F8.next_le.trans i)
  · rcases (w2 ps i).2 with j | j
    · exact Or.inl (F7.next_le.trans j)
    · rcases hPp with k | ⟨a, k, k'⟩
      · exact Or.inr (k.symm.trans j)
      · rw [k] at j
        cases j
        exact Or.inl k'

end
end
end PyKrige
