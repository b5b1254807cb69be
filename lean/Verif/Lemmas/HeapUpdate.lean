import Verif.Lemmas.HeapOK

/-! The heap programs of the `OrdinaryKriging` constructor and of `update_variogram_model` compute what the model
on values computes. -/

namespace PyKrige
noncomputable section
open Matrix

section
variable {w : ℕ} {h : Heap}

theorem initialize_list {n m : ℕ} {env : Env} {X : Fin n → Fin m → ℝ} {y : Fin n → ℝ} {model : String}
    {l : List ℝ} {f : VFun} {nlags : ℕ} {weight : Bool} {ct : String} {r : List (ℝ × ℝ) × List ℝ}
    (h : initializeVariogramModel env X y model (some l) f nlags weight ct = .ok r) : r.2 = l := by
  unfold initializeVariogramModel at h
  obtain ⟨ev, h1, h2⟩ := py_bind_eq_ok.1 h
  dsimp only at h2
  split at h2
  · cases h2
  · split at h2
    · cases h2
    · rw [← Except.ok.inj h2]

/-- The list passed as `variogram_parameters`, if a list was passed. -/
def ParamRef.Below (k : ℕ) : ParamRef → Prop
  | .list a => a.buf < k
  | _ => True

theorem ParamRef.deref_frame {h' : Heap} (f : Heap.Frame w h h') {p : ParamRef} (hp : p.Below w) :
    p.deref h' = p.deref h := by
  cases p with
  | list a => exact congrArg ParamArg.list (a.list_frame f hp)
  | none => rfl
  | dict d => rfl
  | other => rfl

theorem ParamRef.Below.mono {k k' : ℕ} {p : ParamRef} (hp : p.Below k) (hk : k ≤ k') : p.Below k' := by
  cases p with
  | list a => exact lt_of_lt_of_le hp hk
  | none => trivial
  | dict d => trivial
  | other => trivial

theorem Does.makeList (hw : w ≤ h.next) (model : String) (p : ParamRef) (hp : p.Below h.next) :
    Does w (makeVariogramParameterListRef model p) h (makeVariogramParameterList model (p.deref h))
      fun r h' v => r.map (Arr.list h') = v ∧ ∀ a ∈ r, a.buf < h'.next ∧ (h.next ≤ a.buf ∨ p = .list a) := by
  cases p with
  | none => exact Does.ret ⟨rfl, fun _ hm => by cases hm⟩
  | other => exact Does.raise _
  | dict d =>
    unfold makeVariogramParameterListRef
    have e : makeVariogramParameterList model (ParamRef.deref h (.dict d)) =
        makeVariogramParameterList model (.dict d) >>= fun v => .ok v := by
      show makeVariogramParameterList model (.dict d) = _
      cases makeVariogramParameterList model (.dict d) <;> rfl
    rw [e]
    refine Does.liftBind fun v _ => ?_
    cases v with
    | none => exact Does.ret ⟨rfl, fun _ hm => by cases hm⟩
    | some l =>
      refine Does.step (Does.newList hw l false) le_rfl fun a h1 f1 ⟨b1, n1, _, _, l1⟩ => Does.ret ⟨?_, ?_⟩
      · exact congrArg some l1
      · intro a' hm
        cases hm
        exact ⟨by omega, Or.inl (by omega)⟩
  | list a =>
    have ha : a.buf < h.next := hp
    unfold makeVariogramParameterListRef makeVariogramParameterList ParamRef.deref
    dsimp only
    rw [Arr.list_length]
    have keep : Does w (pure (some a) : H (Option Arr)) h (.ok (some (a.list h))) fun r h' v =>
        r.map (Arr.list h') = v ∧ ∀ a' ∈ r, a'.buf < h'.next ∧ (h.next ≤ a'.buf ∨ ParamRef.list a = .list a') :=
      Does.ret ⟨rfl, fun a' hm => by cases hm; exact ⟨ha, Or.inr rfl⟩⟩
    split
    · split
      · exact Does.raise _
      · exact keep
    · split
      · split
        · exact Does.raise _
        · exact keep
      · split
        · split
          · exact Does.raise _
          · next h3 =>
            have hl : a.list h = [a.get h 0 0, a.get h 0 1, a.get h 0 2] := by
              unfold Arr.list
              rw [not_not.1 h3]
              rfl
            rw [hl]
            refine Does.here (Does.step (Does.newList hw _ false) le_rfl
              fun b h1 f1 ⟨b1, n1, _, _, l1⟩ => Does.ret ⟨?_, ?_⟩)
            · exact congrArg some l1
            · intro a' hm
              cases hm
              exact ⟨by omega, Or.inl (by omega)⟩
        · split
          · exact keep
          · exact Does.raise _

theorem Does.resolveModel (hw : w ≤ h.next) (env : Env) (ct : String) (vm : ModelArg) (f : FunArg) (p : ParamRef)
    (hp : p.Below h.next) (sc an : ℝ) :
    Does w (OKRef.resolveModel env ct vm f p sc an) h (OK.resolveModel env ct vm f (p.deref h) sc an)
      fun r h' v => (∃ P, r.2.2.2.1 = P ∧ P.Below h'.next ∧ (P = p ∨ ∃ a, P = .list a ∧ h.next ≤ a.buf) ∧
        v = (r.1, r.2.1, r.2.2.1, P.deref h', r.2.2.2.2)) := by
  cases vm with
  | name s => exact Does.ret ⟨p, rfl, hp, Or.inl rfl, rfl⟩
  | gstools m =>
    unfold OKRef.resolveModel OK.resolveModel
    refine Does.liftBind fun _ _ => ?_
    by_cases h1 : m.fieldDim = 3
    · rw [if_pos h1, if_pos h1]; exact ⟨.refl _ _, .error _⟩
    rw [if_neg h1, if_neg h1]
    dsimp only
    by_cases h2 : m.latlon = true ∧ ct = "euclidean"
    · rw [if_pos h2, if_pos h2]; exact ⟨.refl _ _, .error _⟩
    rw [if_neg h2, if_neg h2]
    refine Does.step (Does.newList hw [] false) le_rfl fun b h' f1 ⟨b1, n1, _, _, l1⟩ =>
      Does.ret ⟨_, rfl, ?_, Or.inr ⟨b, rfl, by omega⟩, ?_⟩
    · show b.buf < h'.next
      omega
    · show _ = (_, _, _, ParamArg.list (b.list h'), _)
      rw [l1]

theorem Does.initialize (hw : w ≤ h.next) {n m : ℕ} (env : Env) (X : Fin n → Fin m → ℝ) (y : Fin n → ℝ)
    (model : String) (vp : Option Arr) (hv : ∀ a ∈ vp, a.buf < h.next) (f : VFun) (nlags : ℕ) (weight : Bool)
    (ct : String) :
    Does w (initializeVariogramModelRef env X y model vp f nlags weight ct) h
      (initializeVariogramModel env X y model (vp.map (Arr.list h)) f nlags weight ct)
      fun r h' v => r.1 = v.1 ∧ r.2.list h' = v.2 ∧ r.2.buf < h'.next ∧ (h.next ≤ r.2.buf ∨ vp = some r.2) := by
  unfold initializeVariogramModelRef
  refine Does.here ?_
  generalize hq : initializeVariogramModel env X y model (vp.map (Arr.list h)) f nlags weight ct = q
  have e : q = q >>= fun v => .ok v := by cases q <;> rfl
  have : Does w (H.lift q >>= fun r => match vp with
      | some a => pure (r.1, a)
      | Option.none => do
        let l ← H.newList r.2
        pure (r.1, l)) h (q >>= fun v => .ok v)
      fun (r : List (ℝ × ℝ) × Arr) h' v => r.1 = v.1 ∧ r.2.list h' = v.2 ∧ r.2.buf < h'.next ∧
        (h.next ≤ r.2.buf ∨ vp = some r.2) := by
    refine Does.liftBind fun v hv' => ?_
    cases vp with
    | some a =>
      refine Does.ret ⟨rfl, ?_, hv a rfl, Or.inr rfl⟩
      rw [hv'] at hq
      exact (initialize_list hq).symm
    | none =>
      refine Does.step (Does.newList hw v.2 false) le_rfl fun b h' f1 ⟨b1, n1, _, _, l1⟩ =>
        Does.ret ⟨rfl, l1, ?_, Or.inl ?_⟩
      · show b.buf < h'.next
        omega
      · show h.next ≤ b.buf
        omega
  rw [← e] at this
  exact this

/-- What holds of every object: its arrays exist, the data arrays are arrays of `n` floats. -/
structure OKRef.Sound (o : OKRef) (n k : ℕ) : Prop where
  live : o.Live k
  xlen : o.X_ORIG.cols = n
  xfloat : o.X_ORIG.isInt = false

theorem Does.setupCoordinates (hw : w ≤ h.next) (n : ℕ) (X Y : Arr) (hX : X.cols = n) (hi : X.isInt = false)
    (bX : X.buf < h.next) (bY : Y.buf < h.next) (ct : String) (sc an : ℝ) :
    Does w (OKRef.setupCoordinates n X Y ct sc an) h (OK.setupCoordinates (X.vec h n) (Y.vec h n) ct sc an)
      fun r h' v => (r.1, r.2.1, r.2.2.1, r.2.2.2.1) = (v.1, v.2.1, v.2.2.1, v.2.2.2.1) ∧
        r.2.2.2.2.1.vec h' n = (fun i => v.2.2.2.2 i 0) ∧ r.2.2.2.2.2.vec h' n = (fun i => v.2.2.2.2 i 1) ∧
        (r.2.2.2.2.1.buf < h'.next ∧ r.2.2.2.2.2.buf < h'.next) ∧
        (h.next ≤ r.2.2.2.2.1.buf ∨ r.2.2.2.2.1 = X) ∧ (h.next ≤ r.2.2.2.2.2.buf ∨ r.2.2.2.2.2 = Y) := by
  unfold OKRef.setupCoordinates OK.setupCoordinates
  by_cases h1 : ct = "euclidean"
  · rw [if_pos h1, if_pos h1]
    refine Does.here (Does.liftBind fun xc _ => Does.liftBind fun yc _ => ?_)
    refine Does.adjusted hw X Y _ _ _ _ (by rw [hi]; rfl) fun A h' f b1 b2 hr hc hint hv => Does.ret ?_
    refine ⟨rfl, ?_, ?_, ⟨b2, b2⟩, Or.inl b1, Or.inl b1⟩
    · funext i
      exact hv i (by rw [hX]; exact i.isLt) 0
    · funext i
      exact hv i (by rw [hX]; exact i.isLt) 1
  · rw [if_neg h1, if_neg h1]
    by_cases h2 : ct = "geographic"
    · rw [if_pos h2, if_pos h2]
      exact Does.ret ⟨rfl, rfl, rfl, ⟨bX, bY⟩, Or.inr rfl, Or.inr rfl⟩
    · rw [if_neg h2, if_neg h2]; exact Does.raise _

theorem Does.copyFloat (hw : w ≤ h.next) (a : Arr) (n : ℕ) :
    Does w a.copyFloat h (.ok ()) fun b h' _ =>
      b.buf = h.next ∧ h'.next = h.next + 1 ∧ b.cols = a.cols ∧ b.isInt = false ∧ b.vec h' n = a.vec h n := by
  unfold Arr.copyFloat
  exact Does.here ((Does.new hw _ _ _ _).weaken fun b h' _ _ ⟨hb, hn, hv⟩ =>
    ⟨by rw [hb], hn, by rw [hb], by rw [hb], funext fun i => hv 0 i⟩)

theorem Does.reAniso (hw : w ≤ h.next) {n : ℕ} (o : OKRef) (ho : o.Sound n h.next) (sc an : ℝ) :
    Does w (o.reAniso sc an) h (.ok ((o.deref h n).reAniso sc an)) fun o' h' s => o'.deref h' n = s ∧
      o'.Sound n h'.next ∧ (h.next ≤ o'.X_ADJUSTED.buf ∨ o'.X_ADJUSTED = o.X_ADJUSTED ∨ o'.X_ADJUSTED = o.X_ORIG) ∧
      (h.next ≤ o'.Y_ADJUSTED.buf ∨ o'.Y_ADJUSTED = o.Y_ADJUSTED ∨ o'.Y_ADJUSTED = o.Y_ORIG) ∧
      o'.X_ORIG = o.X_ORIG ∧ o'.Y_ORIG = o.Y_ORIG ∧ o'.Z = o.Z ∧ o'.params = o.params := by
  unfold OKRef.reAniso OK.reAniso
  rw [show (o.deref h n).anisotropyScaling = o.anisotropyScaling from rfl,
    show (o.deref h n).anisotropyAngle = o.anisotropyAngle from rfl,
    show (o.deref h n).coordinatesType = o.coordinatesType from rfl]
  by_cases h0 : sc ≠ o.anisotropyScaling ∨ an ≠ o.anisotropyAngle
  · rw [if_pos h0, if_pos h0]
    by_cases h1 : o.coordinatesType = "euclidean"
    · rw [if_pos h1, if_pos h1]
      refine Does.adjusted hw o.X_ORIG o.Y_ORIG _ _ _ _ (by rw [ho.xfloat]; rfl)
        fun A h' f b1 b2 hr hc hint hv => Does.ret ⟨?_, ⟨?_, ho.xlen, ho.xfloat⟩, Or.inl b1, Or.inl b1,
          rfl, rfl, rfl, rfl⟩
      · have ex : (A.T.row 0).vec h' n = fun i => adjustData2 (o.X_ORIG.vec h n) (o.Y_ORIG.vec h n) o.XCENTER
            o.YCENTER sc an i 0 := funext fun i => hv i (by rw [ho.xlen]; exact i.isLt) 0
        have ey : (A.T.row 1).vec h' n = fun i => adjustData2 (o.X_ORIG.vec h n) (o.Y_ORIG.vec h n) o.XCENTER
            o.YCENTER sc an i 1 := funext fun i => hv i (by rw [ho.xlen]; exact i.isLt) 1
        unfold OKRef.deref
        dsimp only
        rw [ex, ey, o.X_ORIG.vec_frame f ho.live.xo, o.Y_ORIG.vec_frame f ho.live.yo, o.Z.vec_frame f ho.live.z,
          o.params.list_frame f ho.live.ps]
      · have hl := ho.live.mono f.next_le
        exact ⟨hl.xo, hl.yo, hl.z, b2, b2, hl.ps⟩
    · rw [if_neg h1, if_neg h1]
      by_cases h2 : o.coordinatesType = "geographic"
      · rw [if_pos h2, if_pos h2]
        have hl := ho.live
        exact Does.ret ⟨rfl, ⟨⟨hl.xo, hl.yo, hl.z, hl.xo, hl.yo, hl.ps⟩, ho.xlen, ho.xfloat⟩, Or.inr (Or.inr rfl),
          Or.inr (Or.inr rfl), rfl, rfl, rfl, rfl⟩
      · rw [if_neg h2, if_neg h2]
        exact Does.ret ⟨rfl, ho, Or.inr (Or.inl rfl), Or.inr (Or.inl rfl), rfl, rfl, rfl, rfl⟩
  · rw [if_neg h0, if_neg h0]
    exact Does.ret ⟨rfl, ho, Or.inr (Or.inl rfl), Or.inr (Or.inl rfl), rfl, rfl, rfl, rfl⟩

/-- The data arrays of the object are in memory that did not exist before `k`. -/
structure OKRef.Fresh (o : OKRef) (k : ℕ) : Prop where
  xo : k ≤ o.X_ORIG.buf
  yo : k ≤ o.Y_ORIG.buf
  z : k ≤ o.Z.buf
  xa : k ≤ o.X_ADJUSTED.buf
  ya : k ≤ o.Y_ADJUSTED.buf

/-- Where the parameter list of the object comes from. -/
def KeepsList (p : ParamRef) (a : Arr) (k : ℕ) : Prop := k ≤ a.buf ∨ p = .list a

theorem Does.create {n : ℕ} (env : Env) (x y z : Arr) (hx : x.cols = n) (bx : x.buf < h.next)
    (byy : y.buf < h.next) (bz : z.buf < h.next) (args : OKRefArgs) (hp : args.paramRef.Below h.next) :
    Does h.next (OKRef.create n env x y z args) h
      (OK.create env (x.vec h n) (y.vec h n) (z.vec h n) (args.deref h)) fun o h' s =>
        o.deref h' n = s ∧ o.Sound n h'.next ∧ o.Fresh h.next ∧ KeepsList args.paramRef o.params h.next := by
  unfold OKRef.create OK.create
  rw [show (args.deref h).pseudoInvType = args.pseudoInvType from rfl,
    show (args.deref h).exactValues = args.exactValues from rfl,
    show (args.deref h).coordinatesType = args.coordinatesType from rfl,
    show (args.deref h).variogramModel = args.variogramModel from rfl,
    show (args.deref h).variogramFunction = args.variogramFunction from rfl,
    show (args.deref h).params = args.paramRef.deref h from rfl,
    show (args.deref h).anisotropyScaling = args.anisotropyScaling from rfl,
    show (args.deref h).anisotropyAngle = args.anisotropyAngle from rfl,
    show (args.deref h).nlags = args.nlags from rfl,
    show (args.deref h).weight = args.weight from rfl,
    show (args.deref h).enableStatistics = args.enableStatistics from rfl,
    show (args.deref h).pseudoInv = args.pseudoInv from rfl,
    show (args.deref h).paramsAllInt = args.paramsAllInt from rfl]
  by_cases h1 : args.pseudoInvType ∉ ["pinv", "pinvh"]
  · rw [if_pos h1, if_pos h1]; exact ⟨.refl _ _, .error _⟩
  rw [if_neg h1, if_neg h1]
  cases args.exactValues with
  | notBool => exact ⟨.refl _ _, .error _⟩
  | bool exact =>
  refine Does.bind (w' := h.next) (R := fun a h' b => a = exact ∧ b = exact ∧ h' = h)
    (Does.ret ⟨rfl, rfl, rfl⟩) le_rfl ?_
  rintro ex _ _ - ⟨rfl, hb, hh⟩
  rw [hb, hh]
  clear hb hh
  refine Does.bind (Does.resolveModel (le_refl h.next) env _ _ _ _ hp _ _) le_rfl ?_
  rintro ⟨name, model, fArg, pArg, sc, an⟩ h2 _ f2 ⟨P, rfl, hP, hPp, rfl⟩
  dsimp only at hP hPp ⊢
  refine Does.liftBind ?_
  rintro ⟨f, fname⟩ -
  dsimp only
  have g2 := f2.next_le
  refine Does.step (Does.copyFloat (le_refl h2.next) x n) g2 fun X h3 f3 ⟨x1, x2, x3, x4, x5⟩ => ?_
  refine Does.step (Does.copyFloat (le_refl h3.next) y n) (g2.trans f3.next_le) fun Y h4 f4 ⟨y1, y2, y3, y4, y5⟩ => ?_
  refine Does.step (Does.copyFloat (le_refl h4.next) z n) (g2.trans (f3.next_le.trans f4.next_le))
    fun Z h5 f5 ⟨z1, z2, z3, z4, z5⟩ => ?_
  have F3 : Heap.Frame h.next h h3 := f2.trans (f3.mono g2)
  have F4 : Heap.Frame h.next h h4 := F3.trans (f4.mono F3.next_le)
  have F5 : Heap.Frame h.next h h5 := F4.trans (f5.mono F4.next_le)
  have eX : X.vec h5 n = x.vec h n := by
    rw [X.vec_frame f5 (by omega), X.vec_frame f4 (by omega), x5, x.vec_frame f2 bx]
  have eY : Y.vec h5 n = y.vec h n := by
    rw [Y.vec_frame f5 (by omega), y5, y.vec_frame F3 byy]
  have eZ : Z.vec h5 n = z.vec h n := by rw [z5, z.vec_frame F4 bz]
  rw [← eX, ← eY]
  refine Does.bind (Does.setupCoordinates (le_refl h5.next) n X Y (by rw [x3, hx]) x4 (by omega) (by omega) _ _ _)
    F5.next_le ?_
  rintro ⟨xc, yc, sc', an', XA, YA⟩ h6 ⟨xc', yc', sc'', an'', adj⟩ f6 ⟨e1, e2, e3, ⟨e4, e4'⟩, e5, e6⟩
  dsimp only at e1 e2 e3 e4 e4' e5 e6 ⊢
  obtain ⟨rfl, rfl, rfl, rfl⟩ : xc = xc' ∧ yc = yc' ∧ sc' = sc'' ∧ an' = an'' := by
    simpa using e1
  have F6 : Heap.Frame h.next h h6 := F5.trans (f6.mono F5.next_le)
  have f26 : Heap.Frame h2.next h2 h6 :=
    ((f3.trans (f4.mono f3.next_le)).trans (f5.mono (f3.next_le.trans f4.next_le))).trans
      (f6.mono (f3.next_le.trans (f4.next_le.trans f5.next_le)))
  have hP6 : pArg.deref h6 = pArg.deref h2 := ParamRef.deref_frame f26 hP
  rw [← hP6]
  refine Does.bind (Does.makeList (le_refl h6.next) name pArg (hP.mono f26.next_le)) F6.next_le ?_
  rintro vp h7 _ f7 ⟨rfl, v2⟩
  have F7 : Heap.Frame h.next h h7 := F6.trans (f7.mono F6.next_le)
  refine Does.here ?_
  have g6 := f6.next_le
  have g7 := f7.next_le
  have ePts : pointsOf h7 n XA YA = adj := by
    funext i j
    unfold pointsOf
    rw [XA.vec_frame f7 e4, YA.vec_frame f7 e4', e2, e3]
    fin_cases j <;> rfl
  have eZ7 : Z.vec h7 n = z.vec h n := by
    rw [Z.vec_frame f7 (by omega), Z.vec_frame f6 (by omega), eZ]
  rw [ePts, eZ7]
  refine Does.bind (Does.initialize (le_refl h7.next) env adj _ name vp (fun a ha => (v2 a ha).1) f _ _ _)
    F7.next_le ?_
  rintro ⟨lags, ps⟩ h8 ⟨lags', psV⟩ f8 ⟨i1, i2, i3, i4⟩
  dsimp only at i1 i2 i3 i4 ⊢
  obtain rfl := i1
  obtain rfl := i2
  have g8 := f8.next_le
  have F8 : Heap.Frame h.next h h8 := F7.trans (f8.mono F7.next_le)
  refine Does.here ?_
  have f68 : Heap.Frame h6.next h6 h8 := f7.trans (f8.mono g7)
  have ePts8 : pointsOf h8 n XA YA = adj := by
    funext i j
    unfold pointsOf
    rw [XA.vec_frame f68 e4, YA.vec_frame f68 e4', e2, e3]
    fin_cases j <;> rfl
  have eZ8 : Z.vec h8 n = z.vec h n := by rw [Z.vec_frame f8 (by omega), eZ7]
  have hP8 : pArg.deref h8 = pArg.deref h6 :=
    ParamRef.deref_frame f68 (hP.mono f26.next_le)
  rw [ePts8, eZ8, hP8]
  have fresh5 : h.next ≤ h5.next := F5.next_le
  have fin : ∀ st : Option Stats, Does h.next (pure
      { variogramModel := ModelArg.name name, model := model, exactValues := ex,
        coordinatesType := args.coordinatesType, pseudoInv := args.pseudoInv,
        pseudoInvType := args.pseudoInvType, variogramFunction := f, functionName := fname,
        X_ORIG := X, Y_ORIG := Y, Z := Z, XCENTER := xc, YCENTER := yc,
        anisotropyScaling := sc', anisotropyAngle := an', X_ADJUSTED := XA,
        Y_ADJUSTED := YA, lags := lags, params := ps,
        paramsInt := intParams (ParamRef.deref h6 pArg) (Arr.list h8 ps) args.paramsAllInt,
        stats := st } : H OKRef) h8 (pure
      { variogramModel := ModelArg.name name, model := model, exactValues := ex,
        coordinatesType := args.coordinatesType, pseudoInv := args.pseudoInv,
        pseudoInvType := args.pseudoInvType, variogramFunction := f, functionName := fname,
        X_ORIG := Arr.vec h5 X n, Y_ORIG := Arr.vec h5 Y n, Z := Arr.vec h z n, XCENTER := xc,
        YCENTER := yc, anisotropyScaling := sc', anisotropyAngle := an',
        X_ADJUSTED := fun i => adj i 0, Y_ADJUSTED := fun i => adj i 1, lags := lags,
        params := Arr.list h8 ps, paramsInt := intParams (ParamRef.deref h6 pArg) (Arr.list h8 ps) args.paramsAllInt,
        stats := st } : Py (OK n)) fun o h' s =>
        o.deref h' n = s ∧ o.Sound n h'.next ∧ o.Fresh h.next ∧ KeepsList args.paramRef o.params h.next := by
    intro st
    refine Does.ret ⟨?_, ⟨⟨?_, ?_, ?_, ?_, ?_, i3⟩, by rw [x3, hx], x4⟩, ⟨?_, ?_, ?_, ?_, ?_⟩, ?_⟩
    · unfold OKRef.deref
      dsimp only
      rw [X.vec_frame f68 (by omega), X.vec_frame f6 (by omega), Y.vec_frame f68 (by omega),
        Y.vec_frame f6 (by omega), eZ8, XA.vec_frame f68 e4, YA.vec_frame f68 e4', e2, e3]
    · dsimp only; omega
    · dsimp only; omega
    · dsimp only; omega
    · exact e4.trans_le f68.next_le
    · exact e4'.trans_le f68.next_le
    · dsimp only; omega
    · dsimp only; omega
    · dsimp only; omega
    · rcases e5 with e | e
      · exact fresh5.trans e
      · dsimp only; rw [e]; omega
    · rcases e6 with e | e
      · exact fresh5.trans e
      · dsimp only; rw [e]; omega
    · unfold KeepsList
      rcases i4 with i | i
      · exact Or.inl (F7.next_le.trans i)
      · rcases (v2 ps i).2 with j | j
        · exact Or.inl (F6.next_le.trans j)
        · rcases hPp with k | ⟨a, k, k'⟩
          · exact Or.inr (k.symm.trans j)
          · rw [k] at j
            cases j
            exact Or.inl k'
  by_cases he : args.enableStatistics = true
  · rw [if_pos he, if_pos he]
    refine Does.bind (R := fun a h' b => a = b ∧ h' = h8) (w' := h.next)
      (Does.bind (R := fun a h' b => a = b ∧ h' = h8) (w' := h.next) (Does.lift _) le_rfl ?_) le_rfl ?_
    · rintro st h' _ - ⟨rfl, hh⟩
      exact Does.ret ⟨rfl, hh⟩
    · rintro st h' _ - ⟨rfl, hh⟩
      rw [hh]
      exact fin st
  · rw [if_neg he, if_neg he]
    exact fin Option.none

/-- A heap program and its counterpart on values, both failing or both succeeding. -/
theorem Does.cases {α β : Type} {m : H α} {p : Py β} {R : α → Heap → β → Prop} (d : Does w m h p R) :
    (∃ e h', m h = (.error e, h') ∧ p = .error e ∧ Heap.Frame w h h') ∨
      ∃ a h' b, m h = (.ok a, h') ∧ p = .ok b ∧ Heap.Frame w h h' ∧ R a h' b := by
  have fr := d.frame
  have ag := d.agree
  generalize m h = r at fr ag
  obtain ⟨r, h'⟩ := r
  cases ag with
  | ok hr => exact Or.inr ⟨_, _, _, rfl, rfl, fr, hr⟩
  | error e => exact Or.inl ⟨_, _, rfl, rfl, fr⟩

/-- Everything `update_variogram_model` does: the same as on values, in new memory only. -/
structure Updated (n : ℕ) (h : Heap) (o : OKRef) (p : ParamRef) (r : (Py Unit × OKRef) × Heap) (v : Py Unit × OK n) :
    Prop where
  frame : Heap.Frame h.next h r.2
  outcome : r.1.1 = v.1
  object : r.1.2.deref r.2 n = v.2
  sound : r.1.2.Sound n r.2.next
  xa : h.next ≤ r.1.2.X_ADJUSTED.buf ∨ r.1.2.X_ADJUSTED = o.X_ADJUSTED ∨ r.1.2.X_ADJUSTED = o.X_ORIG
  ya : h.next ≤ r.1.2.Y_ADJUSTED.buf ∨ r.1.2.Y_ADJUSTED = o.Y_ADJUSTED ∨ r.1.2.Y_ADJUSTED = o.Y_ORIG
  xo : r.1.2.X_ORIG = o.X_ORIG
  yo : r.1.2.Y_ORIG = o.Y_ORIG
  z : r.1.2.Z = o.Z
  list : r.1.2.params = o.params ∨ KeepsList p r.1.2.params h.next

/-- `update_variogram_model` from the treatment of the anisotropy on. -/
def OKRef.updateTail (n : ℕ) (env : Env) (o : OKRef) (name : String) (f : VFun) (pArg : ParamRef) (scaling angle : ℝ)
    (u : OKRefUpdate) (h : Heap) : (Py Unit × OKRef) × Heap :=
  match o.reAniso scaling angle h with
  | (.error e, h) => ((.error e, o), h)
  | (.ok o, h) =>
  match makeVariogramParameterListRef name pArg h with
  | (.error e, h) => ((.error e, o), h)
  | (.ok vp, h) =>
  match initializeVariogramModelRef env (pointsOf h n o.X_ADJUSTED o.Y_ADJUSTED) (o.Z.vec h n) name vp f u.nlags
      u.weight o.coordinatesType h with
  | (.error e, h) => ((.error e, o), h)
  | (.ok (lags, ps), h) =>
  let o := { o with lags := lags, params := ps
                    paramsInt := intParams (pArg.deref h) (ps.list h) u.paramsAllInt }
  match findStatistics (pointsOf h n o.X_ADJUSTED o.Y_ADJUSTED) (o.Z.vec h n) f (ps.list h) o.coordinatesType
      o.pseudoInv with
  | .error e => ((.error e, o), h)
  | .ok st => ((.ok (), { o with stats := some st }), h)

/-- The same on values. -/
def OK.updateTail {n : ℕ} (env : Env) (s : OK n) (name : String) (f : VFun) (pArg : ParamArg)
    (u : OKUpdate) : Py Unit × OK n :=
  match makeVariogramParameterList name pArg with
  | .error e => (.error e, s)
  | .ok vp =>
  match initializeVariogramModel env s.pts s.Z name vp f u.nlags u.weight s.coordinatesType with
  | .error e => (.error e, s)
  | .ok (lags, ps) =>
  match findStatistics s.pts s.Z f ps s.coordinatesType s.pseudoInv with
  | .error e =>
    (.error e, { s with lags := lags, params := ps, paramsInt := intParams pArg ps u.paramsAllInt })
  | .ok st =>
    (.ok (), { s with lags := lags, params := ps, paramsInt := intParams pArg ps u.paramsAllInt, stats := some st })

theorem OKRef.updateTail_updated {n : ℕ} (env : Env) (o : OKRef) (ho : o.Sound n h.next) (name : String) (f : VFun)
    (pArg : ParamRef) (hP : pArg.Below h.next) (sc an : ℝ) (u : OKRefUpdate) (u' : OKUpdate)
    (e1 : u'.nlags = u.nlags) (e2 : u'.weight = u.weight) (e3 : u'.paramsAllInt = u.paramsAllInt) :
    Updated n h o pArg (OKRef.updateTail n env o name f pArg sc an u h)
      (OK.updateTail env ((o.deref h n).reAniso sc an) name f (pArg.deref h) u') := by
  unfold OKRef.updateTail OK.updateTail
  rw [e1, e2, e3]
  rcases (Does.reAniso (le_refl h.next) o ho sc an).cases with ⟨e, h2, r1, r2, f2⟩ | ⟨o2, h2, s2, r1, r2, f2, r3⟩
  · cases r2
  rw [r1]
  cases Except.ok.inj r2
  obtain ⟨q1, q2, q3, q4, q5, q6, q7, q8⟩ := r3
  rw [← q1]
  clear r1 r2 q1
  dsimp only
  have keep : ∀ (o' : OKRef) (h' : Heap) (s' : OK n) (e : Py Unit), Heap.Frame h2.next h2 h' →
      o'.X_ORIG = o2.X_ORIG → o'.Y_ORIG = o2.Y_ORIG → o'.Z = o2.Z → o'.X_ADJUSTED = o2.X_ADJUSTED →
      o'.Y_ADJUSTED = o2.Y_ADJUSTED → (o'.params = o.params ∨ KeepsList pArg o'.params h.next) →
      o'.params.buf < h'.next → o'.deref h' n = s' →
      Updated n h o pArg ((e, o'), h') (e, s') := by
    intro o' h' s' e fr p1 p2 p3 p4 p5 p6 p7 p8
    have hl := q2.live.mono fr.next_le
    exact ⟨f2.trans (fr.mono f2.next_le), rfl, p8, ⟨⟨by rw [p1]; exact hl.xo, by rw [p2]; exact hl.yo, by rw [p3]; exact hl.z,
      by rw [p4]; exact hl.xa, by rw [p5]; exact hl.ya, p7⟩, by rw [p1]; exact q2.xlen, by rw [p1]; exact q2.xfloat⟩,
      by rw [p4]; exact q3, by rw [p5]; exact q4, p1.trans q5, p2.trans q6, p3.trans q7, p6⟩
  have pd : pArg.deref h = pArg.deref h2 := (ParamRef.deref_frame f2 hP).symm
  rw [pd]
  have hP2 := hP.mono f2.next_le
  rcases (Does.makeList (le_refl h2.next) name pArg hP2).cases with ⟨e, h3, r1, r2, f3⟩ | ⟨vp, h3, v, r1, r2, f3, r3⟩
  · rw [r1, r2]
    exact keep _ _ _ _ f3 rfl rfl rfl rfl rfl (Or.inl q8) (q2.live.ps.trans_le f3.next_le)
      (OKRef.deref_frame f3 q2.live n)
  rw [r1, r2]
  clear r1 r2
  obtain ⟨rfl, v2⟩ := r3
  dsimp only
  have ePts : pointsOf h3 n o2.X_ADJUSTED o2.Y_ADJUSTED = (o2.deref h2 n).pts := by
    unfold pointsOf
    rw [o2.X_ADJUSTED.vec_frame f3 q2.live.xa, o2.Y_ADJUSTED.vec_frame f3 q2.live.ya]
    rfl
  have eZ : o2.Z.vec h3 n = (o2.deref h2 n).Z := o2.Z.vec_frame f3 q2.live.z n
  rw [ePts, eZ, show (o2.deref h2 n).coordinatesType = o2.coordinatesType from rfl]
  rcases (Does.initialize (le_refl h3.next) env (o2.deref h2 n).pts (o2.deref h2 n).Z name vp
    (fun a ha => (v2 a ha).1) f u.nlags u.weight o2.coordinatesType).cases with
    ⟨e, h4, r1, r2, f4⟩ | ⟨lp, h4, v, r1, r2, f4, r3⟩
  · rw [r1, r2]
    have f24 := f3.trans (f4.mono f3.next_le)
    exact keep _ _ _ _ f24 rfl rfl rfl rfl rfl (Or.inl q8) (q2.live.ps.trans_le f24.next_le)
      (OKRef.deref_frame f24 q2.live n)
  rw [r1, r2]
  clear r1 r2
  obtain ⟨lags, ps⟩ := lp
  obtain ⟨lags', psV⟩ := v
  obtain ⟨i1, i2, i3, i4⟩ := r3
  dsimp only at i1 i2 i3 i4 ⊢
  obtain rfl := i1
  obtain rfl := i2
  have f24 := f3.trans (f4.mono f3.next_le)
  have ePts4 : pointsOf h4 n o2.X_ADJUSTED o2.Y_ADJUSTED = (o2.deref h2 n).pts := by
    unfold pointsOf
    rw [o2.X_ADJUSTED.vec_frame f24 q2.live.xa, o2.Y_ADJUSTED.vec_frame f24 q2.live.ya]
    rfl
  have eZ4 : o2.Z.vec h4 n = (o2.deref h2 n).Z := o2.Z.vec_frame f24 q2.live.z n
  have hP4 : pArg.deref h4 = pArg.deref h2 := ParamRef.deref_frame f24 hP2
  have kl : KeepsList pArg ps h.next := by
    rcases i4 with i | i
    · exact Or.inl (f2.next_le.trans (f3.next_le.trans i))
    · rcases (v2 ps i).2 with j | j
      · exact Or.inl (f2.next_le.trans j)
      · exact Or.inr j
  have dd : ∀ (st : Option Stats) (pi : Bool),
      ({ o2 with lags := lags, params := ps, paramsInt := pi, stats := st } : OKRef).deref h4 n =
        { o2.deref h2 n with lags := lags, params := ps.list h4, paramsInt := pi, stats := st } := by
    intro st pi
    rw [← OKRef.deref_frame f24 q2.live n]
    rfl
  rw [ePts4, eZ4, hP4]
  rw [show (o2.deref h2 n).pseudoInv = o2.pseudoInv from rfl]
  cases findStatistics (o2.deref h2 n).pts (o2.deref h2 n).Z f (ps.list h4) o2.coordinatesType o2.pseudoInv with
  | error e => exact keep _ _ _ _ f24 rfl rfl rfl rfl rfl (Or.inr kl) i3 (dd o2.stats _)
  | ok st => exact keep _ _ _ _ f24 rfl rfl rfl rfl rfl (Or.inr kl) i3 (dd (some st) _)

theorem OKRef.update_updated {n : ℕ} (env : Env) (o : OKRef) (ho : o.Sound n h.next) (u : OKRefUpdate)
    (hp : u.paramRef.Below h.next) :
    Updated n h o u.paramRef (OKRef.update n env o u h) (OK.update env (o.deref h n) (u.deref h)) := by
  unfold OKRef.update OK.update
  dsimp only
  rw [show (u.deref h).variogramModel = u.variogramModel from rfl,
    show (u.deref h).variogramFunction = u.variogramFunction from rfl,
    show (u.deref h).params = u.paramRef.deref h from rfl,
    show (u.deref h).anisotropyScaling = u.anisotropyScaling from rfl,
    show (u.deref h).anisotropyAngle = u.anisotropyAngle from rfl,
    show (u.deref h).nlags = u.nlags from rfl,
    show (u.deref h).weight = u.weight from rfl,
    show (u.deref h).paramsAllInt = u.paramsAllInt from rfl,
    show (o.deref h n).coordinatesType = o.coordinatesType from rfl]
  -- an outcome that leaves all arrays as they are
  have keep : ∀ (o' : OKRef) (h' : Heap) (s' : OK n) (e : Py Unit), Heap.Frame h.next h h' →
      o'.X_ORIG = o.X_ORIG → o'.Y_ORIG = o.Y_ORIG → o'.Z = o.Z → o'.X_ADJUSTED = o.X_ADJUSTED →
      o'.Y_ADJUSTED = o.Y_ADJUSTED → o'.params = o.params → o'.deref h n = s' →
      Updated n h o u.paramRef ((e, o'), h') (e, s') := by
    intro o' h' s' e f e1 e2 e3 e4 e5 e6 e7
    have hl := ho.live
    have hl' : o'.Live h.next := ⟨by rw [e1]; exact hl.xo, by rw [e2]; exact hl.yo, by rw [e3]; exact hl.z,
      by rw [e4]; exact hl.xa, by rw [e5]; exact hl.ya, by rw [e6]; exact hl.ps⟩
    exact ⟨f, rfl, (OKRef.deref_frame f hl' n).trans e7,
      ⟨hl'.mono f.next_le, by rw [e1]; exact ho.xlen, by rw [e1]; exact ho.xfloat⟩, Or.inr (Or.inl e4),
      Or.inr (Or.inl e5), e1, e2, e3, Or.inl e6⟩
  rcases (Does.resolveModel (le_refl h.next) env o.coordinatesType u.variogramModel u.variogramFunction u.paramRef hp
    u.anisotropyScaling u.anisotropyAngle).cases with ⟨e, h2, r1, r2, f2⟩ | ⟨r, h2, v, r1, r2, f2, r3⟩
  · rw [r1, r2]
    dsimp only
    cases u.variogramModel with
    | name s => exact keep _ _ _ _ f2 rfl rfl rfl rfl rfl rfl rfl
    | gstools m => exact keep _ _ _ _ f2 rfl rfl rfl rfl rfl rfl rfl
  obtain ⟨name, model, fArg, pArg, sc, an⟩ := r
  obtain ⟨P, rfl, hP, hPp, rfl⟩ := r3
  rw [r1, r2]
  dsimp only at hP hPp ⊢
  cases hc : chooseFunction name fArg with
  | error e => exact keep _ _ _ _ f2 rfl rfl rfl rfl rfl rfl rfl
  | ok ff =>
  obtain ⟨f, fname⟩ := ff
  dsimp only
  have hl := ho.live
  change Updated n h o u.paramRef (OKRef.updateTail n env { o with variogramModel := .name name, model := model, variogramFunction := f, functionName := fname } name f pArg sc an u h2)
    (OK.updateTail env (OK.reAniso { o.deref h n with variogramModel := .name name, model := model, variogramFunction := f, functionName := fname } sc an) name f (pArg.deref h2) (u.deref h))
  generalize ho1 : ({ o with variogramModel := .name name, model := model, variogramFunction := f, functionName := fname } : OKRef) = o1
  have hl0 : o1.Live h.next := by
    rw [← ho1]
    exact ⟨hl.xo, hl.yo, hl.z, hl.xa, hl.ya, hl.ps⟩
  have hl1 : o1.Sound n h2.next := by
    refine ⟨hl0.mono f2.next_le, ?_, ?_⟩
    · rw [← ho1]; exact ho.xlen
    · rw [← ho1]; exact ho.xfloat
  have hd : ({ o.deref h n with variogramModel := .name name, model := model, variogramFunction := f, functionName := fname } : OK n) = o1.deref h2 n := by
    rw [OKRef.deref_frame f2 hl0 n, ← ho1]
    rfl
  rw [hd]
  have U := OKRef.updateTail_updated env o1 hl1 name f pArg hP sc an u (u.deref h) rfl rfl rfl
  obtain ⟨a1, a2, a3, a4, a5, a6, a7, a8, a9, a10⟩ := U
  have b1 : o1.X_ADJUSTED = o.X_ADJUSTED := by rw [← ho1]
  have b2 : o1.Y_ADJUSTED = o.Y_ADJUSTED := by rw [← ho1]
  have b3 : o1.X_ORIG = o.X_ORIG := by rw [← ho1]
  have b4 : o1.Y_ORIG = o.Y_ORIG := by rw [← ho1]
  have b5 : o1.Z = o.Z := by rw [← ho1]
  have b6 : o1.params = o.params := by rw [← ho1]
  rw [b1, b3] at a5
  rw [b2, b4] at a6
  rw [b3] at a7
  rw [b4] at a8
  rw [b5] at a9
  rw [b6] at a10
  refine ⟨f2.trans (a1.mono f2.next_le), a2, a3, a4, a5.imp f2.next_le.trans id, a6.imp f2.next_le.trans id, a7, a8,
    a9, a10.imp id ?_⟩
  rintro (k | k)
  · exact Or.inl (f2.next_le.trans k)
  · rcases hPp with k' | ⟨a, k', k''⟩
    · exact Or.inr (k'.symm.trans k)
    · exact Or.inl (k''.trans (congrArg Arr.buf (ParamRef.list.inj (k'.symm.trans k))).le)

end
end
end PyKrige
