import Verif.Lemmas.Heap3Update

/-! `update_variogram_model` of `OrdinaryKriging3D` on memory. -/

namespace PyKrige
noncomputable section

section
variable {h : Heap}

/-- Everything `update_variogram_model` does: the same as on values, in new memory only. -/
structure Updated3 (n : ℕ) (h : Heap) (o : OK3DRef) (p : ParamRef) (r : (Py Unit × OK3DRef) × Heap)
    (v : Py Unit × OK3D n) : Prop where
  frame : Heap.Frame h.next h r.2
  outcome : r.1.1 = v.1
  object : r.1.2.deref r.2 n = v.2
  sound : r.1.2.Sound n r.2.next
  keeps : o.Keeps r.1.2 h.next
  list : r.1.2.params = o.params ∨ KeepsList p r.1.2.params h.next

/-- `update_variogram_model` from the treatment of the anisotropy on. -/
def OK3DRef.updateTail (n : ℕ) (env : Env) (o : OK3DRef) (name : String) (f : VFun) (pArg : ParamRef) (an : Aniso3)
    (u : Update3DRef) (h : Heap) : (Py Unit × OK3DRef) × Heap :=
  match o.reAniso an h with
  | (.error e, h) => ((.error e, o), h)
  | (.ok o, h) =>
  match makeVariogramParameterListRef name pArg h with
  | (.error e, h) => ((.error e, o), h)
  | (.ok vp, h) =>
  match initializeVariogramModelRef env (pointsOf3 h n o.X_ADJUSTED o.Y_ADJUSTED o.Z_ADJUSTED) (o.VALUES.vec h n)
      name vp f u.nlags u.weight "euclidean" h with
  | (.error e, h) => ((.error e, o), h)
  | (.ok (lags, ps), h) =>
  let o := { o with lags := lags, params := ps }
  match findStatistics (pointsOf3 h n o.X_ADJUSTED o.Y_ADJUSTED o.Z_ADJUSTED) (o.VALUES.vec h n) f (ps.list h)
      "euclidean" o.pseudoInv with
  | .error e => ((.error e, o), h)
  | .ok st => ((.ok (), { o with stats := some st }), h)

/-- The same on values. -/
def OK3D.updateTail {n : ℕ} (env : Env) (s : OK3D n) (name : String) (f : VFun) (pArg : ParamArg)
    (u : Update3D) : Py Unit × OK3D n :=
  match makeVariogramParameterList name pArg with
  | .error e => (.error e, s)
  | .ok vp =>
  match initializeVariogramModel env s.pts s.VALUES name vp f u.nlags u.weight "euclidean" with
  | .error e => (.error e, s)
  | .ok (lags, ps) =>
  match findStatistics s.pts s.VALUES f ps "euclidean" s.pseudoInv with
  | .error e => (.error e, { s with lags := lags, params := ps })
  | .ok st => (.ok (), { s with lags := lags, params := ps, stats := some st })

theorem OK3DRef.updateTail_updated {n : ℕ} (env : Env) (o : OK3DRef) (ho : o.Sound n h.next) (name : String) (f : VFun)
    (pArg : ParamRef) (hP : pArg.Below h.next) (an : Aniso3) (u : Update3DRef) (u' : Update3D)
    (e1 : u'.nlags = u.nlags) (e2 : u'.weight = u.weight) :
    Updated3 n h o pArg (OK3DRef.updateTail n env o name f pArg an u h)
      (OK3D.updateTail env ((o.deref h n).reAniso an) name f (pArg.deref h) u') := by
  unfold OK3DRef.updateTail OK3D.updateTail
  rw [e1, e2]
  rcases (Does.reAniso3 (le_refl h.next) o ho an).cases with ⟨e, h2, r1, r2, f2⟩ | ⟨o2, h2, s2, r1, r2, f2, r3⟩
  · cases r2
  rw [r1]
  cases Except.ok.inj r2
  obtain ⟨q1, q2, q3, q8⟩ := r3
  rw [← q1]
  clear r1 r2 q1
  dsimp only
  have keep : ∀ (o' : OK3DRef) (h' : Heap) (s' : OK3D n) (e : Py Unit), Heap.Frame h2.next h2 h' →
      o'.X_ORIG = o2.X_ORIG → o'.Y_ORIG = o2.Y_ORIG → o'.Z_ORIG = o2.Z_ORIG → o'.VALUES = o2.VALUES →
      o'.X_ADJUSTED = o2.X_ADJUSTED → o'.Y_ADJUSTED = o2.Y_ADJUSTED → o'.Z_ADJUSTED = o2.Z_ADJUSTED →
      (o'.params = o.params ∨ KeepsList pArg o'.params h.next) →
      o'.params.buf < h'.next → o'.deref h' n = s' →
      Updated3 n h o pArg ((e, o'), h') (e, s') := by
    intro o' h' s' e fr p1 p2 pz p3 p4 p5 p6' p6 p7 p8
    have hl := q2.live.mono fr.next_le
    exact ⟨f2.trans (fr.mono f2.next_le), rfl, p8, ⟨⟨by rw [p1]; exact hl.xo, by rw [p2]; exact hl.yo,
      by rw [pz]; exact hl.zo, by rw [p3]; exact hl.z,
      by rw [p4]; exact hl.xa, by rw [p5]; exact hl.ya, by rw [p6']; exact hl.za, p7⟩,
      by rw [p1]; exact q2.xlen, by rw [p1]; exact q2.xfloat⟩,
      ⟨by rw [p4]; exact q3.xa, by rw [p5]; exact q3.ya, by rw [p6']; exact q3.za, p1.trans q3.xo, p2.trans q3.yo,
        pz.trans q3.zo, p3.trans q3.z⟩, p6⟩
  have pd : pArg.deref h = pArg.deref h2 := (ParamRef.deref_frame f2 hP).symm
  rw [pd]
  have hP2 := hP.mono f2.next_le
  rcases (Does.makeList (le_refl h2.next) name pArg hP2).cases with ⟨e, h3, r1, r2, f3⟩ | ⟨vp, h3, v, r1, r2, f3, r3⟩
  · rw [r1, r2]
    exact keep _ _ _ _ f3 rfl rfl rfl rfl rfl rfl rfl (Or.inl q8) (q2.live.ps.trans_le f3.next_le)
      (OK3DRef.deref_frame f3 q2.live n)
  rw [r1, r2]
  clear r1 r2
  obtain ⟨rfl, v2⟩ := r3
  dsimp only
  have ePts : ∀ {h' : Heap}, Heap.Frame h2.next h2 h' →
      pointsOf3 h' n o2.X_ADJUSTED o2.Y_ADJUSTED o2.Z_ADJUSTED = (o2.deref h2 n).pts := by
    intro h' fr
    unfold pointsOf3
    rw [o2.X_ADJUSTED.vec_frame fr q2.live.xa, o2.Y_ADJUSTED.vec_frame fr q2.live.ya,
      o2.Z_ADJUSTED.vec_frame fr q2.live.za]
    rfl
  have eZ : o2.VALUES.vec h3 n = (o2.deref h2 n).VALUES := o2.VALUES.vec_frame f3 q2.live.z n
  rw [ePts f3, eZ]
  rcases (Does.initialize (le_refl h3.next) env (o2.deref h2 n).pts (o2.deref h2 n).VALUES name vp
    (fun a ha => (v2 a ha).1) f u.nlags u.weight "euclidean").cases with
    ⟨e, h4, r1, r2, f4⟩ | ⟨lp, h4, v, r1, r2, f4, r3⟩
  · rw [r1, r2]
    have f24 := f3.trans (f4.mono f3.next_le)
    exact keep _ _ _ _ f24 rfl rfl rfl rfl rfl rfl rfl (Or.inl q8) (q2.live.ps.trans_le f24.next_le)
      (OK3DRef.deref_frame f24 q2.live n)
  rw [r1, r2]
  clear r1 r2
  obtain ⟨lags, ps⟩ := lp
  obtain ⟨lags', psV⟩ := v
  obtain ⟨i1, i2, i3, i4⟩ := r3
  dsimp only at i1 i2 i3 i4 ⊢
  obtain rfl := i1
  obtain rfl := i2
  have f24 := f3.trans (f4.mono f3.next_le)
  have eZ4 : o2.VALUES.vec h4 n = (o2.deref h2 n).VALUES := o2.VALUES.vec_frame f24 q2.live.z n
  have kl : KeepsList pArg ps h.next := by
    rcases i4 with i | i
    · exact Or.inl (f2.next_le.trans (f3.next_le.trans i))
    · rcases (v2 ps i).2 with j | j
      · exact Or.inl (f2.next_le.trans j)
      · exact Or.inr j
  have dd : ∀ (st : Option Stats),
      ({ o2 with lags := lags, params := ps, stats := st } : OK3DRef).deref h4 n =
        { o2.deref h2 n with lags := lags, params := ps.list h4, stats := st } := by
    intro st
    rw [← OK3DRef.deref_frame f24 q2.live n]
    rfl
  rw [ePts f24, eZ4]
  rw [show (o2.deref h2 n).pseudoInv = o2.pseudoInv from rfl]
  cases findStatistics (o2.deref h2 n).pts (o2.deref h2 n).VALUES f (ps.list h4) "euclidean" o2.pseudoInv with
  | error e => exact keep _ _ _ _ f24 rfl rfl rfl rfl rfl rfl rfl (Or.inr kl) i3 (dd o2.stats)
  | ok st => exact keep _ _ _ _ f24 rfl rfl rfl rfl rfl rfl rfl (Or.inr kl) i3 (dd (some st))

theorem OK3DRef.update_updated {n : ℕ} (env : Env) (o : OK3DRef) (ho : o.Sound n h.next) (u : Update3DRef)
    (hp : u.paramRef.Below h.next) :
    Updated3 n h o u.paramRef (OK3DRef.update n env o u h) (OK3D.update env (o.deref h n) (u.deref h)) := by
  unfold OK3DRef.update OK3D.update
  dsimp only
  rw [show (u.deref h).variogramModel = u.variogramModel from rfl,
    show (u.deref h).variogramFunction = u.variogramFunction from rfl,
    show (u.deref h).params = u.paramRef.deref h from rfl,
    show (u.deref h).aniso = u.aniso from rfl,
    show (u.deref h).nlags = u.nlags from rfl,
    show (u.deref h).weight = u.weight from rfl]
  -- an outcome that leaves all arrays as they are
  have keep : ∀ (o' : OK3DRef) (h' : Heap) (s' : OK3D n) (e : Py Unit), Heap.Frame h.next h h' →
      o'.X_ORIG = o.X_ORIG → o'.Y_ORIG = o.Y_ORIG → o'.Z_ORIG = o.Z_ORIG → o'.VALUES = o.VALUES →
      o'.X_ADJUSTED = o.X_ADJUSTED → o'.Y_ADJUSTED = o.Y_ADJUSTED → o'.Z_ADJUSTED = o.Z_ADJUSTED →
      o'.params = o.params → o'.deref h n = s' →
      Updated3 n h o u.paramRef ((e, o'), h') (e, s') := by
    intro o' h' s' e f e1 e2 ez e3 e4 e5 e6' e6 e7
    have hl := ho.live
    have hl' : o'.Live h.next := ⟨by rw [e1]; exact hl.xo, by rw [e2]; exact hl.yo, by rw [ez]; exact hl.zo,
      by rw [e3]; exact hl.z,
      by rw [e4]; exact hl.xa, by rw [e5]; exact hl.ya, by rw [e6']; exact hl.za, by rw [e6]; exact hl.ps⟩
    exact ⟨f, rfl, (OK3DRef.deref_frame f hl' n).trans e7,
      ⟨hl'.mono f.next_le, by rw [e1]; exact ho.xlen, by rw [e1]; exact ho.xfloat⟩,
      ⟨Or.inr e4, Or.inr e5, Or.inr e6', e1, e2, ez, e3⟩, Or.inl e6⟩
  rcases (Does.resolveModel3 (le_refl h.next) env u.variogramModel u.variogramFunction u.paramRef hp
    u.aniso).cases with ⟨e, h2, r1, r2, f2⟩ | ⟨r, h2, v, r1, r2, f2, r3⟩
  · rw [r1, r2]
    dsimp only
    cases u.variogramModel with
    | name s => exact keep _ _ _ _ f2 rfl rfl rfl rfl rfl rfl rfl rfl rfl
    | gstools m => exact keep _ _ _ _ f2 rfl rfl rfl rfl rfl rfl rfl rfl rfl
  obtain ⟨name, model, fArg, pArg, an⟩ := r
  obtain ⟨P, rfl, hP, hPp, rfl⟩ := r3
  rw [r1, r2]
  dsimp only at hP hPp ⊢
  cases hc : chooseFunction name fArg with
  | error e => exact keep _ _ _ _ f2 rfl rfl rfl rfl rfl rfl rfl rfl rfl
  | ok ff =>
  obtain ⟨f, fname⟩ := ff
  dsimp only
  have hl := ho.live
  change Updated3 n h o u.paramRef (OK3DRef.updateTail n env { o with variogramModel := .name name, model := model, variogramFunction := f, functionName := fname } name f pArg an u h2)
    (OK3D.updateTail env (OK3D.reAniso { o.deref h n with variogramModel := .name name, model := model, variogramFunction := f, functionName := fname } an) name f (pArg.deref h2) (u.deref h))
  generalize ho1 : ({ o with variogramModel := .name name, model := model, variogramFunction := f, functionName := fname } : OK3DRef) = o1
  have hl0 : o1.Live h.next := by
    rw [← ho1]
    exact ⟨hl.xo, hl.yo, hl.zo, hl.z, hl.xa, hl.ya, hl.za, hl.ps⟩
  have hl1 : o1.Sound n h2.next := by
    refine ⟨hl0.mono f2.next_le, ?_, ?_⟩
    · rw [← ho1]; exact ho.xlen
    · rw [← ho1]; exact ho.xfloat
  have hd : ({ o.deref h n with variogramModel := .name name, model := model, variogramFunction := f, functionName := fname } : OK3D n) = o1.deref h2 n := by
    rw [OK3DRef.deref_frame f2 hl0 n, ← ho1]
    rfl
  rw [hd]
  have U := OK3DRef.updateTail_updated env o1 hl1 name f pArg hP an u (u.deref h) rfl rfl
  obtain ⟨a1, a2, a3, a4, a5, a10⟩ := U
  have b6 : o1.params = o.params := by rw [← ho1]
  rw [b6] at a10
  refine ⟨f2.trans (a1.mono f2.next_le), a2, a3, a4, ?_, a10.imp id ?_⟩
  · obtain ⟨k1, k2, k3, k4, k5, k6, k7⟩ := a5
    rw [show o1.X_ADJUSTED = o.X_ADJUSTED by rw [← ho1]] at k1
    rw [show o1.Y_ADJUSTED = o.Y_ADJUSTED by rw [← ho1]] at k2
    rw [show o1.Z_ADJUSTED = o.Z_ADJUSTED by rw [← ho1]] at k3
    rw [show o1.X_ORIG = o.X_ORIG by rw [← ho1]] at k4
    rw [show o1.Y_ORIG = o.Y_ORIG by rw [← ho1]] at k5
    rw [show o1.Z_ORIG = o.Z_ORIG by rw [← ho1]] at k6
    rw [show o1.VALUES = o.VALUES by rw [← ho1]] at k7
    exact ⟨k1.imp f2.next_le.trans id, k2.imp f2.next_le.trans id, k3.imp f2.next_le.trans id, k4, k5, k6, k7⟩
  rintro (k | k)
  · exact Or.inl (f2.next_le.trans k)
  · rcases hPp with k' | ⟨a, k', k''⟩
    · exact Or.inr (k'.symm.trans k)
    · exact Or.inl (k''.trans (congrArg Arr.buf (ParamRef.list.inj (k'.symm.trans k))).le)

end
end
end PyKrige
