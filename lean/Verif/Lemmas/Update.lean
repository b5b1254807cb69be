import Verif.Lemmas.Create
import Verif.Spec.Update

/-! What every `update_variogram_model` call, successful or not, leaves alone, and what a successful one
establishes. -/

namespace PyKrige
noncomputable section

theorem adjusted_eta {n : ℕ} (adj : Fin n → Fin 2 → ℝ) : (fun i => ![adj i 0, adj i 1]) = adj := by
  funext i k; fin_cases k <;> rfl

theorem adjusted_eta3 {n : ℕ} (adj : Fin n → Fin 3 → ℝ) : (fun i => ![adj i 0, adj i 1, adj i 2]) = adj := by
  funext i k; fin_cases k <;> rfl

/-! ### OrdinaryKriging -/

/-- The attributes that depend only on the constructor arguments, and the coordinates being those of the stored
anisotropy. -/
structure OK.Keeps {n : ℕ} (x y z : Fin n → ℝ) (args : OKArgs) (s : OK n) : Prop where
  ptype : args.pseudoInvType ∈ ["pinv", "pinvh"]
  exact : args.exactValues = .bool s.exactValues
  ct : s.coordinatesType = args.coordinatesType
  pinv : s.pseudoInv = args.pseudoInv
  pinvType : s.pseudoInvType = args.pseudoInvType
  X : s.X_ORIG = x
  Y : s.Y_ORIG = y
  Z : s.Z = z
  coords : OK.setupCoordinates x y args.coordinatesType s.anisotropyScaling s.anisotropyAngle =
    .ok (s.XCENTER, s.YCENTER, s.anisotropyScaling, s.anisotropyAngle, s.pts)

theorem OK.create_keeps {n : ℕ} {env : Env} {x y z : Fin n → ℝ} {args : OKArgs} {s : OK n}
    (h : OK.create env x y z args = .ok s) : s.Keeps x y z args := by
  obtain ⟨hp, exact, name, model, fArg, pArg, sc₀, an₀, f, fname, xc, yc, sc, an, adj, vp, lags, ps, stats,
    h1, h2, h3, h4, h5, h6, h7, rfl⟩ := OK.create_ok h
  refine ⟨hp, h1, rfl, rfl, rfl, rfl, rfl, rfl, ?_⟩
  unfold OK.pts
  dsimp only
  rw [adjusted_eta]
  unfold OK.setupCoordinates at h4 ⊢
  split at h4
  · next he =>
    rw [if_pos he]
    obtain ⟨xc', hx, h4⟩ := py_bind_eq_ok.1 h4
    obtain ⟨yc', hy, h4⟩ := py_bind_eq_ok.1 h4
    simp only [py_pure, Except.ok.injEq, Prod.mk.injEq] at h4
    obtain ⟨rfl, rfl, rfl, rfl, rfl⟩ := h4
    simp [hx, hy]
  · next he =>
    rw [if_neg he]
    split at h4
    · next hg =>
      rw [if_pos hg]
      simp only [Except.ok.injEq, Prod.mk.injEq] at h4
      obtain ⟨rfl, rfl, rfl, rfl, rfl⟩ := h4
      rfl
    · simp at h4

theorem OK.reAniso_keeps {n : ℕ} {x y z : Fin n → ℝ} {args : OKArgs} {s : OK n} (h : s.Keeps x y z args)
    (sc an : ℝ) : (s.reAniso sc an).Keeps x y z args ∧
      OK.setupCoordinates x y args.coordinatesType sc an = .ok ((s.reAniso sc an).XCENTER,
        (s.reAniso sc an).YCENTER, (s.reAniso sc an).anisotropyScaling, (s.reAniso sc an).anisotropyAngle,
        (s.reAniso sc an).pts) := by
  have hc := h.coords
  unfold OK.reAniso
  split
  · have hct := h.ct
    unfold OK.setupCoordinates at hc ⊢
    split
    · next he =>
      rw [hct] at he
      rw [if_pos he] at hc ⊢
      obtain ⟨xc', hx, hc⟩ := py_bind_eq_ok.1 hc
      obtain ⟨yc', hy, hc⟩ := py_bind_eq_ok.1 hc
      simp only [py_pure, Except.ok.injEq, Prod.mk.injEq] at hc
      obtain ⟨rfl, rfl, -, -, -⟩ := hc
      have e : (do
          let xc ← midrange x
          let yc ← midrange y
          return (xc, yc, sc, an, adjustData2 x y xc yc sc an) : Py _) = .ok (s.XCENTER, s.YCENTER, sc, an,
            fun i => ![adjustData2 s.X_ORIG s.Y_ORIG s.XCENTER s.YCENTER sc an i 0,
              adjustData2 s.X_ORIG s.Y_ORIG s.XCENTER s.YCENTER sc an i 1]) := by
        rw [adjusted_eta, h.X, h.Y]
        simp [hx, hy]
      refine ⟨⟨h.ptype, h.exact, hct, h.pinv, h.pinvType, h.X, h.Y, h.Z, ?_⟩, e⟩
      unfold OK.setupCoordinates
      rw [if_pos he]
      exact e
    · next he =>
      rw [hct] at he
      rw [if_neg he] at hc ⊢
      split at hc
      · next hg =>
        have hg' : s.coordinatesType = "geographic" := hct.trans hg
        rw [if_pos hg', if_pos hg]
        simp only [Except.ok.injEq, Prod.mk.injEq] at hc
        obtain ⟨hxc, hyc, -, -, -⟩ := hc
        have e : (.ok (0, 0, 1, 0, fun i => ![x i, y i]) : Py (ℝ × ℝ × ℝ × ℝ × (Fin n → Fin 2 → ℝ))) =
            .ok (s.XCENTER, s.YCENTER, 1, 0, fun i => ![s.X_ORIG i, s.Y_ORIG i]) := by
          rw [h.X, h.Y, ← hxc, ← hyc]
        refine ⟨⟨h.ptype, h.exact, hct, h.pinv, h.pinvType, h.X, h.Y, h.Z, ?_⟩, e⟩
        unfold OK.setupCoordinates
        rw [if_neg he, if_pos hg]
        exact e
      · simp at hc
  · next hne =>
    push Not at hne
    refine ⟨h, ?_⟩
    rw [hne.1, hne.2]
    exact hc

theorem OK.Keeps.congr {n : ℕ} {x y z : Fin n → ℝ} {args : OKArgs} {s s' : OK n} (h : s.Keeps x y z args)
    (h1 : s'.exactValues = s.exactValues) (h2 : s'.coordinatesType = s.coordinatesType)
    (h3 : s'.pseudoInv = s.pseudoInv) (h4 : s'.pseudoInvType = s.pseudoInvType) (h5 : s'.X_ORIG = s.X_ORIG)
    (h6 : s'.Y_ORIG = s.Y_ORIG) (h7 : s'.Z = s.Z) (h8 : s'.XCENTER = s.XCENTER) (h9 : s'.YCENTER = s.YCENTER)
    (h10 : s'.anisotropyScaling = s.anisotropyScaling) (h11 : s'.anisotropyAngle = s.anisotropyAngle)
    (h12 : s'.X_ADJUSTED = s.X_ADJUSTED) (h13 : s'.Y_ADJUSTED = s.Y_ADJUSTED) : s'.Keeps x y z args := by
  have hp : s'.pts = s.pts := by unfold OK.pts; rw [h12, h13]
  refine ⟨h.ptype, by rw [h1]; exact h.exact, h2.trans h.ct, h3.trans h.pinv, h4.trans h.pinvType, h5.trans h.X,
    h6.trans h.Y, h7.trans h.Z, ?_⟩
  rw [h8, h9, h10, h11, hp]
  exact h.coords

theorem OK.reAniso_model {n : ℕ} (s : OK n) (sc an : ℝ) :
    (s.reAniso sc an).variogramModel = s.variogramModel ∧ (s.reAniso sc an).model = s.model ∧
    (s.reAniso sc an).variogramFunction = s.variogramFunction ∧
    (s.reAniso sc an).functionName = s.functionName := by
  unfold OK.reAniso
  split_ifs <;> exact ⟨rfl, rfl, rfl, rfl⟩

/-- Every update call, successful or not, keeps the attributes of `Keeps`. -/
theorem OK.update_keeps {n : ℕ} {env : Env} {x y z : Fin n → ℝ} {args : OKArgs} {s : OK n}
    (h : s.Keeps x y z args) (u : OKUpdate) : (OK.update env s u).2.Keeps x y z args := by
  unfold OK.update
  dsimp only
  split
  · split <;> exact h.congr rfl rfl rfl rfl rfl rfl rfl rfl rfl rfl rfl rfl rfl
  · next name model fArg pArg scaling angle hr =>
    split
    · exact h.congr rfl rfl rfl rfl rfl rfl rfl rfl rfl rfl rfl rfl rfl
    · next f fname hf =>
      have h1 : ({ s with variogramModel := .name name, model := model, variogramFunction := f,
                          functionName := fname } : OK n).Keeps x y z args :=
        h.congr rfl rfl rfl rfl rfl rfl rfl rfl rfl rfl rfl rfl rfl
      have hk := (OK.reAniso_keeps h1 scaling angle).1
      generalize OK.reAniso _ scaling angle = s1 at hk ⊢
      split
      · exact hk
      · split
        · exact hk
        · split
          · exact hk.congr rfl rfl rfl rfl rfl rfl rfl rfl rfl rfl rfl rfl rfl
          · exact hk.congr rfl rfl rfl rfl rfl rfl rfl rfl rfl rfl rfl rfl rfl

/-- A successful update makes the object a freshly constructed one (apart from the statistics, which the
constructor computes only on request). -/
theorem OK.update_fresh {n : ℕ} {env : Env} {x y z : Fin n → ℝ} {args : OKArgs} {s s' : OK n}
    (h : s.Keeps x y z args) {u : OKUpdate} (hu : OK.update env s u = (.ok (), s')) :
    OK.create env x y z (args.withUpdate u) =
      .ok { s' with stats := if args.enableStatistics then s'.stats else none } := by
  unfold OK.update at hu
  dsimp only at hu
  split at hu
  · simp at hu
  · next name model fArg pArg scaling angle hr =>
    split at hu
    · simp at hu
    · next f fname hf =>
      have h1 : ({ s with variogramModel := .name name, model := model, variogramFunction := f,
                          functionName := fname } : OK n).Keeps x y z args :=
        h.congr rfl rfl rfl rfl rfl rfl rfl rfl rfl rfl rfl rfl rfl
      obtain ⟨hk, hset⟩ := OK.reAniso_keeps h1 scaling angle
      have e4 := OK.reAniso_model ({ s with
        variogramModel := .name name, model := model, variogramFunction := f, functionName := fname } : OK n)
        scaling angle
      generalize OK.reAniso _ scaling angle = s1 at hk hset hu e4
      dsimp only at e4
      obtain ⟨em, eg, ef, efn⟩ := e4
      split at hu
      · simp at hu
      · next vp hm =>
        split at hu
        · simp at hu
        · next lags ps hi =>
          split at hu
          · simp at hu
          · next st hs =>
            simp only [Prod.mk.injEq, true_and] at hu
            subst hu
            rw [h.ct] at hr
            rw [hk.ct, hk.Z] at hi
            have hs' : findStatistics s1.pts s1.Z f ps s1.coordinatesType s1.pseudoInv = .ok st := hs
            rw [hk.ct, hk.Z, hk.pinv] at hs'
            unfold OK.create OKArgs.withUpdate
            rw [if_neg (not_not.2 h.ptype)]
            simp only [hk.exact, py_pure, py_ok_bind, hr, hf, hset, hm, hi]
            have e1 : (fun i => s1.pts i 0) = s1.X_ADJUSTED := by
              funext i; simp [OK.pts]
            have e2 : (fun i => s1.pts i 1) = s1.Y_ADJUSTED := by
              funext i; simp [OK.pts]
            rw [e1, e2]
            cases args.enableStatistics <;>
              simp [hs', hk.X, hk.Y, hk.Z, hk.ct, hk.pinv, hk.pinvType, em, eg, ef, efn]

/-- An update with settings the constructor accepts (computing the statistics) is accepted. -/
theorem OK.update_accepts {n : ℕ} {env : Env} {x y z : Fin n → ℝ} {args : OKArgs} {s t : OK n}
    (h : s.Keeps x y z args) {u : OKUpdate}
    (hc : OK.create env x y z { args.withUpdate u with enableStatistics := true } = .ok t) :
    ∃ s', OK.update env s u = (.ok (), s') := by
  obtain ⟨hpt, exact, name, model, fArg, pArg, sc₀, an₀, f, fname, xc, yc, sc, an, adj, vp, lags, ps, stats,
    h1, hr, hf, hset, hm, hi, hs, -⟩ := OK.create_ok hc
  have hr' : OK.resolveModel env args.coordinatesType u.variogramModel u.variogramFunction u.params
    u.anisotropyScaling u.anisotropyAngle = .ok (name, model, fArg, pArg, sc₀, an₀) := hr
  have hi' : initializeVariogramModel env _ _ name vp f u.nlags u.weight args.coordinatesType =
    .ok (lags, ps) := hi
  have hset' : OK.setupCoordinates x y args.coordinatesType sc₀ an₀ = .ok (xc, yc, sc, an, adj) := hset
  have h1 : ({ s with
      variogramModel := .name name, model := model, variogramFunction := f, functionName := fname } : OK n).Keeps
      x y z args := h.congr rfl rfl rfl rfl rfl rfl rfl rfl rfl rfl rfl rfl rfl
  obtain ⟨hk, hset2⟩ := OK.reAniso_keeps h1 sc₀ an₀
  rw [← h.ct] at hr'
  unfold OK.update
  simp only [hr', hf, hm]
  generalize OK.reAniso _ sc₀ an₀ = s1 at hk hset2 ⊢
  have e := Except.ok.inj (hset'.symm.trans hset2)
  simp only [Prod.mk.injEq] at e
  obtain ⟨-, -, -, -, e⟩ := e
  rw [e, ← hk.Z, ← hk.ct] at hi'
  simp only [hi']
  simp only [if_true, py_map_eq_ok] at hs
  obtain ⟨st, hs, -⟩ := hs
  have hs' : findStatistics adj z f ps args.coordinatesType args.pseudoInv = .ok st := hs
  rw [e, ← hk.Z, ← hk.ct, ← hk.pinv] at hs'
  have hs'' : findStatistics ({ s1 with
      lags := lags, params := ps, paramsInt := intParams pArg ps u.paramsAllInt } : OK n).pts s1.Z f ps
      s1.coordinatesType s1.pseudoInv = .ok st := hs'
  rw [hs'']
  exact ⟨_, rfl⟩


/-! ### OK3D -/

/-- The attributes that depend only on the constructor arguments, and the coordinates being those of the stored
anisotropy. -/
structure OK3D.Keeps {n : ℕ} (x y z v : Fin n → ℝ) (args : OK3DArgs) (s : OK3D n) : Prop where
  ptype : args.pseudoInvType ∈ ["pinv", "pinvh"]
  exact : args.exactValues = .bool s.exactValues
  pinv : s.pseudoInv = args.pseudoInv
  pinvType : s.pseudoInvType = args.pseudoInvType
  X : s.X_ORIG = x
  Y : s.Y_ORIG = y
  Zo : s.Z_ORIG = z
  V : s.VALUES = v
  xc : midrange x = .ok s.XCENTER
  yc : midrange y = .ok s.YCENTER
  zc : midrange z = .ok s.ZCENTER
  pts : s.pts = (fun i => adjustPoint3 s.XCENTER s.YCENTER s.ZCENTER s.aniso (x i) (y i) (z i))

theorem OK3D.create_keeps {n : ℕ} {env : Env} {x y z v : Fin n → ℝ} {args : OK3DArgs} {s : OK3D n}
    (h : OK3D.create env x y z v args = .ok s) : s.Keeps x y z v args := by
  obtain ⟨hpt, exact, name, model, fArg, pArg, an, f, fname, xc, yc, zc, vp, lags, ps, stats, h1, h2, h3, hxc, hyc, hzc, h5, h6, h7, rfl⟩ := OK3D.create_ok h
  refine ⟨hpt, h1, rfl, rfl, rfl, rfl, rfl, rfl, hxc, hyc, hzc, ?_⟩
  unfold OK3D.pts
  funext i j; fin_cases j <;> rfl

theorem OK3D.reAniso_aniso {n : ℕ} (s : OK3D n) (an : Aniso3) : (s.reAniso an).aniso = an := by
  unfold OK3D.reAniso
  split
  · rfl
  · next hne =>
    push Not at hne
    obtain ⟨h1, h2, h3, h4, h5⟩ := hne
    cases an
    cases ha : s.aniso
    simp_all

theorem OK3D.Keeps.congr {n : ℕ} {x y z v : Fin n → ℝ} {args : OK3DArgs} {s s' : OK3D n}
    (h : s.Keeps x y z v args)
    (h0 : s'.exactValues = s.exactValues)
    (h1 : s'.pseudoInv = s.pseudoInv)
    (h2 : s'.pseudoInvType = s.pseudoInvType)
    (h3 : s'.X_ORIG = s.X_ORIG)
    (h4 : s'.Y_ORIG = s.Y_ORIG)
    (h5 : s'.Z_ORIG = s.Z_ORIG)
    (h6 : s'.VALUES = s.VALUES)
    (h7 : s'.XCENTER = s.XCENTER)
    (h8 : s'.YCENTER = s.YCENTER)
    (h9 : s'.ZCENTER = s.ZCENTER)
    (h10 : s'.aniso = s.aniso)
    (h11 : s'.X_ADJUSTED = s.X_ADJUSTED)
    (h12 : s'.Y_ADJUSTED = s.Y_ADJUSTED)
    (h13 : s'.Z_ADJUSTED = s.Z_ADJUSTED) :
    s'.Keeps x y z v args := by
  have hp : s'.pts = s.pts := by unfold OK3D.pts; rw [h11, h12, h13]
  exact ⟨h.ptype,
    by rw [h0]; exact h.exact,
    h1.trans h.pinv,
    h2.trans h.pinvType,
    h3.trans h.X,
    h4.trans h.Y,
    h5.trans h.Zo,
    h6.trans h.V,
    by rw [h7]; exact h.xc,
    by rw [h8]; exact h.yc,
    by rw [h9]; exact h.zc,
    by rw [hp, h7, h8, h9, h10]; exact h.pts⟩

theorem OK3D.reAniso_keeps {n : ℕ} {x y z v : Fin n → ℝ} {args : OK3DArgs} {s : OK3D n}
    (h : s.Keeps x y z v args) (an : Aniso3) : (s.reAniso an).Keeps x y z v args := by
  unfold OK3D.reAniso
  split
  · refine ⟨h.ptype, h.exact, h.pinv, h.pinvType, h.X, h.Y, h.Zo, h.V, h.xc, h.yc, h.zc, ?_⟩
    unfold OK3D.pts
    rw [← h.X, ← h.Y, ← h.Zo]
    funext i j; fin_cases j <;> rfl
  · exact h

theorem OK3D.reAniso_model {n : ℕ} (s : OK3D n) (an : Aniso3) :
    (s.reAniso an).variogramModel = s.variogramModel ∧ (s.reAniso an).model = s.model ∧
    (s.reAniso an).variogramFunction = s.variogramFunction ∧
    (s.reAniso an).functionName = s.functionName := by
  unfold OK3D.reAniso
  split_ifs <;> exact ⟨rfl, rfl, rfl, rfl⟩

/-- Every update call, successful or not, keeps the attributes of `Keeps`. -/
theorem OK3D.update_keeps {n : ℕ} {env : Env} {x y z v : Fin n → ℝ} {args : OK3DArgs} {s : OK3D n}
    (h : s.Keeps x y z v args) (u : Update3D) : (OK3D.update env s u).2.Keeps x y z v args := by
  unfold OK3D.update
  dsimp only
  split
  · split <;> exact h.congr rfl rfl rfl rfl rfl rfl rfl rfl rfl rfl rfl rfl rfl rfl
  · next name model fArg pArg an hr =>
    split
    · exact h.congr rfl rfl rfl rfl rfl rfl rfl rfl rfl rfl rfl rfl rfl rfl
    · next f fname hf =>
      have h1 : ({ s with
        variogramModel := .name name, model := model, variogramFunction := f, functionName := fname } : OK3D n).Keeps x y z v args :=
        h.congr rfl rfl rfl rfl rfl rfl rfl rfl rfl rfl rfl rfl rfl rfl
      have hk := OK3D.reAniso_keeps h1 an
      generalize OK3D.reAniso _ an = s1 at hk ⊢
      split
      · exact hk
      · split
        · exact hk
        · split
          · exact hk.congr rfl rfl rfl rfl rfl rfl rfl rfl rfl rfl rfl rfl rfl rfl
          · exact hk.congr rfl rfl rfl rfl rfl rfl rfl rfl rfl rfl rfl rfl rfl rfl

/-- A successful update makes the object a freshly constructed one. -/
theorem OK3D.update_fresh {n : ℕ} {env : Env} {x y z v : Fin n → ℝ} {args : OK3DArgs} {s s' : OK3D n}
    (h : s.Keeps x y z v args) {u : Update3D} (hu : OK3D.update env s u = (.ok (), s')) :
    OK3D.create env x y z v (args.withUpdate u) = .ok s' := by
  unfold OK3D.update at hu
  dsimp only at hu
  split at hu
  · simp at hu
  · next name model fArg pArg an hr =>
    split at hu
    · simp at hu
    · next f fname hf =>
      have h1 : ({ s with
        variogramModel := .name name, model := model, variogramFunction := f, functionName := fname } : OK3D n).Keeps x y z v args :=
        h.congr rfl rfl rfl rfl rfl rfl rfl rfl rfl rfl rfl rfl rfl rfl
      have hk := OK3D.reAniso_keeps h1 an
      have e4 := OK3D.reAniso_model ({ s with
        variogramModel := .name name, model := model, variogramFunction := f, functionName := fname } : OK3D n) an
      have ea := OK3D.reAniso_aniso ({ s with
        variogramModel := .name name, model := model, variogramFunction := f, functionName := fname } : OK3D n) an
      generalize OK3D.reAniso _ an = s1 at hk hu e4 ea
      dsimp only at e4
      obtain ⟨em, eg, ef, efn⟩ := e4
      have hpts := hk.pts
      rw [ea] at hpts
      split at hu
      · simp at hu
      · next vp hm =>
        split at hu
        · simp at hu
        · next lags ps hi =>
          split at hu
          · simp at hu
          · next st hs =>
            simp only [Prod.mk.injEq, true_and] at hu
            subst hu
            have hs' : findStatistics s1.pts s1.VALUES f ps "euclidean" s1.pseudoInv = .ok st := hs
            rw [hk.V, hk.pinv, hpts] at hs'
            rw [hk.V, hpts] at hi
            have e0 : (fun i => adjustPoint3 s1.XCENTER s1.YCENTER s1.ZCENTER an (x i) (y i) (z i) 0) = s1.X_ADJUSTED := by
              funext i
              have := congrFun (congrFun hpts i) 0
              simpa [OK3D.pts] using this.symm
            have e1 : (fun i => adjustPoint3 s1.XCENTER s1.YCENTER s1.ZCENTER an (x i) (y i) (z i) 1) = s1.Y_ADJUSTED := by
              funext i
              have := congrFun (congrFun hpts i) 1
              simpa [OK3D.pts] using this.symm
            have e2 : (fun i => adjustPoint3 s1.XCENTER s1.YCENTER s1.ZCENTER an (x i) (y i) (z i) 2) = s1.Z_ADJUSTED := by
              funext i
              have := congrFun (congrFun hpts i) 2
              simpa [OK3D.pts] using this.symm
            unfold OK3D.create OK3DArgs.withUpdate
            rw [if_neg (not_not.2 h.ptype)]
            simp only [hk.exact, py_pure, py_ok_bind, hr, hf, hk.xc, hk.yc, hk.zc, hm, hi, hs']
            simp [hk.X, hk.Y, hk.Zo, hk.V, hk.pinv, hk.pinvType, em, eg, ef, efn, ea, e0, e1, e2]

/-! ### UK -/

/-- The attributes that depend only on the constructor arguments, and the coordinates being those of the stored
anisotropy. `sc₀`, `an₀` are the anisotropy the wells were adjusted with. -/
structure UK.Keeps {n : ℕ} (sc₀ an₀ : ℝ) (x y z : Fin n → ℝ) (args : UKArgs) (s : UK n) : Prop where
  ptype : args.pseudoInvType ∈ ["pinv", "pinvh"]
  exact : args.exactValues = .bool s.exactValues
  pinv : s.pseudoInv = args.pseudoInv
  pinvType : s.pseudoInvType = args.pseudoInvType
  X : s.X_ORIG = x
  Y : s.Y_ORIG = y
  V : s.Z = z
  xc : midrange x = .ok s.XCENTER
  yc : midrange y = .ok s.YCENTER
  pts : s.pts = adjustData2 x y s.XCENTER s.YCENTER s.anisotropyScaling s.anisotropyAngle
  regional : s.regionalLinear = decide ("regional_linear" ∈ args.driftTerms)
  ext : setupExternalZ x y args = .ok s.externalZ
  spec : setupSpecifiedTerm n args.driftTerms args.specifiedDrift = .ok s.specified
  func : setupFunctionalTerm args.driftTerms args.functionalDrift = .ok s.functional
  wells : setupPointLog s.XCENTER s.YCENTER sc₀ an₀ args = .ok s.pointLog

theorem UK.create_keeps {n : ℕ} {env : Env} {x y z : Fin n → ℝ} {args : UKArgs} {s : UK n}
    (h : UK.create env x y z args = .ok s) : ∃ sc₀ an₀, (∃ name model fArg pArg, UK.resolveModel env args.variogramModel args.variogramFunction args.params
        args.anisotropyScaling args.anisotropyAngle = .ok (name, model, fArg, pArg, sc₀, an₀)) ∧
      s.Keeps sc₀ an₀ x y z args := by
  obtain ⟨hpt, exact, name, model, fArg, pArg, sc, an, f, fname, xc, yc, vp, lags, ps, stats, ext, plog, spec, func, h1, h2, h3, hxc, hyc, h5, h6, h7, hext, hplog, hspec, hfunc, rfl⟩ := UK.create_ok h
  refine ⟨sc, an, ⟨name, model, fArg, pArg, h2⟩, hpt, h1, rfl, rfl, rfl, rfl, rfl, hxc, hyc, ?_, rfl, hext, hspec, hfunc, hplog⟩
  unfold UK.pts
  funext i j; fin_cases j <;> rfl

theorem UK.reAniso_aniso {n : ℕ} (s : UK n) (sc an : ℝ) :
    (s.reAniso sc an).anisotropyScaling = sc ∧ (s.reAniso sc an).anisotropyAngle = an := by
  unfold UK.reAniso
  split
  · exact ⟨rfl, rfl⟩
  · next hne =>
    push Not at hne
    exact ⟨hne.1.symm, hne.2.symm⟩

theorem UK.Keeps.congr {n : ℕ} {sc₀ an₀ : ℝ} {x y z : Fin n → ℝ} {args : UKArgs} {s s' : UK n}
    (h : s.Keeps sc₀ an₀ x y z args)
    (h0 : s'.exactValues = s.exactValues)
    (h1 : s'.pseudoInv = s.pseudoInv)
    (h2 : s'.pseudoInvType = s.pseudoInvType)
    (h3 : s'.X_ORIG = s.X_ORIG)
    (h4 : s'.Y_ORIG = s.Y_ORIG)
    (h5 : s'.Z = s.Z)
    (h6 : s'.XCENTER = s.XCENTER)
    (h7 : s'.YCENTER = s.YCENTER)
    (h8 : s'.anisotropyScaling = s.anisotropyScaling)
    (h9 : s'.anisotropyAngle = s.anisotropyAngle)
    (h10 : s'.X_ADJUSTED = s.X_ADJUSTED)
    (h11 : s'.Y_ADJUSTED = s.Y_ADJUSTED)
    (h12 : s'.regionalLinear = s.regionalLinear)
    (h13 : s'.externalZ = s.externalZ)
    (h14 : s'.specified = s.specified)
    (h15 : s'.functional = s.functional)
    (h16 : s'.pointLog = s.pointLog) :
    s'.Keeps sc₀ an₀ x y z args := by
  have hp : s'.pts = s.pts := by unfold UK.pts; rw [h10, h11]
  exact ⟨h.ptype,
    by rw [h0]; exact h.exact,
    h1.trans h.pinv,
    h2.trans h.pinvType,
    h3.trans h.X,
    h4.trans h.Y,
    h5.trans h.V,
    by rw [h6]; exact h.xc,
    by rw [h7]; exact h.yc,
    by rw [hp, h6, h7, h8, h9]; exact h.pts,
    h12.trans h.regional,
    by rw [h13]; exact h.ext,
    by rw [h14]; exact h.spec,
    by rw [h15]; exact h.func,
    by rw [h16, h6, h7]; exact h.wells⟩

theorem UK.reAniso_keeps {n : ℕ} {sc₀ an₀ : ℝ} {x y z : Fin n → ℝ} {args : UKArgs} {s : UK n}
    (h : s.Keeps sc₀ an₀ x y z args) (sc an : ℝ) : (s.reAniso sc an).Keeps sc₀ an₀ x y z args := by
  unfold UK.reAniso
  split
  · refine ⟨h.ptype, h.exact, h.pinv, h.pinvType, h.X, h.Y, h.V, h.xc, h.yc, ?_, h.regional, h.ext, h.spec, h.func, h.wells⟩
    unfold UK.pts
    rw [← h.X, ← h.Y]
    funext i j; fin_cases j <;> rfl
  · exact h

theorem UK.reAniso_model {n : ℕ} (s : UK n) (sc an : ℝ) :
    (s.reAniso sc an).variogramModel = s.variogramModel ∧ (s.reAniso sc an).model = s.model ∧
    (s.reAniso sc an).variogramFunction = s.variogramFunction ∧
    (s.reAniso sc an).functionName = s.functionName := by
  unfold UK.reAniso
  split_ifs <;> exact ⟨rfl, rfl, rfl, rfl⟩

/-- Every update call, successful or not, keeps the attributes of `Keeps`. -/
theorem UK.update_keeps {n : ℕ} {env : Env} {sc₀ an₀ : ℝ} {x y z : Fin n → ℝ} {args : UKArgs} {s : UK n}
    (h : s.Keeps sc₀ an₀ x y z args) (u : OKUpdate) : (UK.update env s u).2.Keeps sc₀ an₀ x y z args := by
  unfold UK.update
  dsimp only
  split
  · split <;> exact h.congr rfl rfl rfl rfl rfl rfl rfl rfl rfl rfl rfl rfl rfl rfl rfl rfl rfl
  · next name model fArg pArg scaling angle hr =>
    split
    · exact h.congr rfl rfl rfl rfl rfl rfl rfl rfl rfl rfl rfl rfl rfl rfl rfl rfl rfl
    · next f fname hf =>
      have h1 : ({ s with
        variogramModel := .name name, model := model, variogramFunction := f, functionName := fname } : UK n).Keeps sc₀ an₀ x y z args :=
        h.congr rfl rfl rfl rfl rfl rfl rfl rfl rfl rfl rfl rfl rfl rfl rfl rfl rfl
      have hk := UK.reAniso_keeps h1 scaling angle
      generalize UK.reAniso _ scaling angle = s1 at hk ⊢
      split
      · exact hk
      · split
        · exact hk
        · split
          · exact hk.congr rfl rfl rfl rfl rfl rfl rfl rfl rfl rfl rfl rfl rfl rfl rfl rfl rfl
          · exact hk.congr rfl rfl rfl rfl rfl rfl rfl rfl rfl rfl rfl rfl rfl rfl rfl rfl rfl

/-- A successful update makes the object a freshly constructed one, except that the wells stay where they were. -/
theorem UK.update_fresh {n : ℕ} {env : Env} {sc₀ an₀ : ℝ} {x y z : Fin n → ℝ} {args : UKArgs} {s s' : UK n}
    (h : s.Keeps sc₀ an₀ x y z args) {u : OKUpdate} (hu : UK.update env s u = (.ok (), s')) :
    ∃ plog, setupPointLog s'.XCENTER s'.YCENTER s'.anisotropyScaling s'.anisotropyAngle args = .ok plog ∧
      (∃ name model fArg pArg, UK.resolveModel env u.variogramModel u.variogramFunction u.params
        u.anisotropyScaling u.anisotropyAngle =
          .ok (name, model, fArg, pArg, s'.anisotropyScaling, s'.anisotropyAngle)) ∧
      UK.create env x y z (args.withUpdate u) = .ok { s' with pointLog := plog } := by
  unfold UK.update at hu
  dsimp only at hu
  split at hu
  · simp at hu
  · next name model fArg pArg scaling angle hr =>
    split at hu
    · simp at hu
    · next f fname hf =>
      have h1 : ({ s with
        variogramModel := .name name, model := model, variogramFunction := f, functionName := fname } : UK n).Keeps sc₀ an₀ x y z args :=
        h.congr rfl rfl rfl rfl rfl rfl rfl rfl rfl rfl rfl rfl rfl rfl rfl rfl rfl
      have hk := UK.reAniso_keeps h1 scaling angle
      have e4 := UK.reAniso_model ({ s with
        variogramModel := .name name, model := model, variogramFunction := f, functionName := fname } : UK n) scaling angle
      have ea := UK.reAniso_aniso ({ s with
        variogramModel := .name name, model := model, variogramFunction := f, functionName := fname } : UK n) scaling angle
      generalize UK.reAniso _ scaling angle = s1 at hk hu e4 ea
      dsimp only at e4
      obtain ⟨em, eg, ef, efn⟩ := e4
      obtain ⟨ea1, ea2⟩ := ea
      have hpts := hk.pts
      rw [ea1, ea2] at hpts
      split at hu
      · simp at hu
      · next vp hm =>
        split at hu
        · simp at hu
        · next lags ps hi =>
          split at hu
          · simp at hu
          · next st hs =>
            simp only [Prod.mk.injEq, true_and] at hu
            subst hu
            have hs' : findStatistics s1.pts s1.Z f ps "euclidean" s1.pseudoInv = .ok st := hs
            rw [hk.V, hk.pinv, hpts] at hs'
            rw [hk.V, hpts] at hi
            have e0 : (fun i => adjustData2 x y s1.XCENTER s1.YCENTER scaling angle i 0) = s1.X_ADJUSTED := by
              funext i
              have := congrFun (congrFun hpts i) 0
              simpa [UK.pts] using this.symm
            have e1 : (fun i => adjustData2 x y s1.XCENTER s1.YCENTER scaling angle i 1) = s1.Y_ADJUSTED := by
              funext i
              have := congrFun (congrFun hpts i) 1
              simpa [UK.pts] using this.symm
            have hplog : ∃ plog, setupPointLog s1.XCENTER s1.YCENTER scaling angle args = .ok plog := by
              have hw := hk.wells
              unfold setupPointLog at hw ⊢
              split at hw
              · next ht =>
                rw [if_pos ht]
                split at hw
                · simp at hw
                · next wells hwl => exact ⟨_, if_neg (ok_of_ite hw).1⟩
              · next ht => rw [if_neg ht]; exact ⟨none, rfl⟩
            obtain ⟨plog, hplog⟩ := hplog
            refine ⟨plog, by rw [← hplog, ← ea1, ← ea2], ⟨name, model, fArg, pArg, by rw [hr, ea1, ea2]⟩, ?_⟩
            have hext : setupExternalZ x y (args.withUpdate u) = setupExternalZ x y args := rfl
            have hpl : setupPointLog s1.XCENTER s1.YCENTER scaling angle (args.withUpdate u) =
              setupPointLog s1.XCENTER s1.YCENTER scaling angle args := rfl
            unfold UKArgs.withUpdate at hext hpl
            rw [hk.exact] at hext hpl
            unfold UK.create UKArgs.withUpdate
            rw [if_neg (not_not.2 h.ptype)]
            simp only [hk.exact, py_pure, py_ok_bind, hr, hf, hk.xc, hk.yc, hm, hi, hs', hext, hk.ext, hpl, hplog, hk.spec, hk.func]
            simp [hk.X, hk.Y, hk.V, hk.pinv, hk.pinvType, em, eg, ef, efn, ea1, ea2, e0, e1, hk.regional]

/-! ### UK3D -/

/-- The attributes that depend only on the constructor arguments, and the coordinates being those of the stored
anisotropy. -/
structure UK3D.Keeps {n : ℕ} (x y z v : Fin n → ℝ) (args : UK3DArgs) (s : UK3D n) : Prop where
  ptype : args.pseudoInvType ∈ ["pinv", "pinvh"]
  exact : args.exactValues = .bool s.exactValues
  pinv : s.pseudoInv = args.pseudoInv
  pinvType : s.pseudoInvType = args.pseudoInvType
  X : s.X_ORIG = x
  Y : s.Y_ORIG = y
  Zo : s.Z_ORIG = z
  V : s.VALUES = v
  xc : midrange x = .ok s.XCENTER
  yc : midrange y = .ok s.YCENTER
  zc : midrange z = .ok s.ZCENTER
  pts : s.pts = (fun i => adjustPoint3 s.XCENTER s.YCENTER s.ZCENTER s.aniso (x i) (y i) (z i))
  regional : s.regionalLinear = decide ("regional_linear" ∈ args.driftTerms)
  spec : setupSpecifiedTerm n args.driftTerms args.specifiedDrift = .ok s.specified
  func : setupFunctionalTerm args.driftTerms args.functionalDrift = .ok s.functional

theorem UK3D.create_keeps {n : ℕ} {env : Env} {x y z v : Fin n → ℝ} {args : UK3DArgs} {s : UK3D n}
    (h : UK3D.create env x y z v args = .ok s) : s.Keeps x y z v args := by
  obtain ⟨hpt, exact, name, model, fArg, pArg, an, f, fname, xc, yc, zc, vp, lags, ps, stats, spec, func, h1, h2, h3, hxc, hyc, hzc, h5, h6, h7, hspec, hfunc, rfl⟩ := UK3D.create_ok h
  refine ⟨hpt, h1, rfl, rfl, rfl, rfl, rfl, rfl, hxc, hyc, hzc, ?_, rfl, hspec, hfunc⟩
  unfold UK3D.pts
  funext i j; fin_cases j <;> rfl

theorem UK3D.reAniso_aniso {n : ℕ} (s : UK3D n) (an : Aniso3) : (s.reAniso an).aniso = an := by
  unfold UK3D.reAniso
  split
  · rfl
  · next hne =>
    push Not at hne
    obtain ⟨h1, h2, h3, h4, h5⟩ := hne
    cases an
    cases ha : s.aniso
    simp_all

theorem UK3D.Keeps.congr {n : ℕ} {x y z v : Fin n → ℝ} {args : UK3DArgs} {s s' : UK3D n}
    (h : s.Keeps x y z v args)
    (h0 : s'.exactValues = s.exactValues)
    (h1 : s'.pseudoInv = s.pseudoInv)
    (h2 : s'.pseudoInvType = s.pseudoInvType)
    (h3 : s'.X_ORIG = s.X_ORIG)
    (h4 : s'.Y_ORIG = s.Y_ORIG)
    (h5 : s'.Z_ORIG = s.Z_ORIG)
    (h6 : s'.VALUES = s.VALUES)
    (h7 : s'.XCENTER = s.XCENTER)
    (h8 : s'.YCENTER = s.YCENTER)
    (h9 : s'.ZCENTER = s.ZCENTER)
    (h10 : s'.aniso = s.aniso)
    (h11 : s'.X_ADJUSTED = s.X_ADJUSTED)
    (h12 : s'.Y_ADJUSTED = s.Y_ADJUSTED)
    (h13 : s'.Z_ADJUSTED = s.Z_ADJUSTED)
    (h14 : s'.regionalLinear = s.regionalLinear)
    (h15 : s'.specified = s.specified)
    (h16 : s'.functional = s.functional) :
    s'.Keeps x y z v args := by
  have hp : s'.pts = s.pts := by unfold UK3D.pts; rw [h11, h12, h13]
  exact ⟨h.ptype,
    by rw [h0]; exact h.exact,
    h1.trans h.pinv,
    h2.trans h.pinvType,
    h3.trans h.X,
    h4.trans h.Y,
    h5.trans h.Zo,
    h6.trans h.V,
    by rw [h7]; exact h.xc,
    by rw [h8]; exact h.yc,
    by rw [h9]; exact h.zc,
    by rw [hp, h7, h8, h9, h10]; exact h.pts,
    h14.trans h.regional,
    by rw [h15]; exact h.spec,
    by rw [h16]; exact h.func⟩

theorem UK3D.reAniso_keeps {n : ℕ} {x y z v : Fin n → ℝ} {args : UK3DArgs} {s : UK3D n}
    (h : s.Keeps x y z v args) (an : Aniso3) : (s.reAniso an).Keeps x y z v args := by
  unfold UK3D.reAniso
  split
  · refine ⟨h.ptype, h.exact, h.pinv, h.pinvType, h.X, h.Y, h.Zo, h.V, h.xc, h.yc, h.zc, ?_, h.regional, h.spec, h.func⟩
    unfold UK3D.pts
    rw [← h.X, ← h.Y, ← h.Zo]
    funext i j; fin_cases j <;> rfl
  · exact h

theorem UK3D.reAniso_model {n : ℕ} (s : UK3D n) (an : Aniso3) :
    (s.reAniso an).variogramModel = s.variogramModel ∧ (s.reAniso an).model = s.model ∧
    (s.reAniso an).variogramFunction = s.variogramFunction ∧
    (s.reAniso an).functionName = s.functionName := by
  unfold UK3D.reAniso
  split_ifs <;> exact ⟨rfl, rfl, rfl, rfl⟩

/-- Every update call, successful or not, keeps the attributes of `Keeps`. -/
theorem UK3D.update_keeps {n : ℕ} {env : Env} {x y z v : Fin n → ℝ} {args : UK3DArgs} {s : UK3D n}
    (h : s.Keeps x y z v args) (u : Update3D) : (UK3D.update env s u).2.Keeps x y z v args := by
  unfold UK3D.update
  dsimp only
  split
  · split <;> exact h.congr rfl rfl rfl rfl rfl rfl rfl rfl rfl rfl rfl rfl rfl rfl rfl rfl rfl
  · next name model fArg pArg an hr =>
    split
    · exact h.congr rfl rfl rfl rfl rfl rfl rfl rfl rfl rfl rfl rfl rfl rfl rfl rfl rfl
    · next f fname hf =>
      have h1 : ({ s with
        variogramModel := .name name, model := model, variogramFunction := f, functionName := fname } : UK3D n).Keeps x y z v args :=
        h.congr rfl rfl rfl rfl rfl rfl rfl rfl rfl rfl rfl rfl rfl rfl rfl rfl rfl
      have hk := UK3D.reAniso_keeps h1 an
      generalize UK3D.reAniso _ an = s1 at hk ⊢
      split
      · exact hk
      · split
        · exact hk
        · split
          · exact hk.congr rfl rfl rfl rfl rfl rfl rfl rfl rfl rfl rfl rfl rfl rfl rfl rfl rfl
          · exact hk.congr rfl rfl rfl rfl rfl rfl rfl rfl rfl rfl rfl rfl rfl rfl rfl rfl rfl

/-- A successful update makes the object a freshly constructed one. -/
theorem UK3D.update_fresh {n : ℕ} {env : Env} {x y z v : Fin n → ℝ} {args : UK3DArgs} {s s' : UK3D n}
    (h : s.Keeps x y z v args) {u : Update3D} (hu : UK3D.update env s u = (.ok (), s')) :
    UK3D.create env x y z v (args.withUpdate u) = .ok s' := by
  unfold UK3D.update at hu
  dsimp only at hu
  split at hu
  · simp at hu
  · next name model fArg pArg an hr =>
    split at hu
    · simp at hu
    · next f fname hf =>
      have h1 : ({ s with
        variogramModel := .name name, model := model, variogramFunction := f, functionName := fname } : UK3D n).Keeps x y z v args :=
        h.congr rfl rfl rfl rfl rfl rfl rfl rfl rfl rfl rfl rfl rfl rfl rfl rfl rfl
      have hk := UK3D.reAniso_keeps h1 an
      have e4 := UK3D.reAniso_model ({ s with
        variogramModel := .name name, model := model, variogramFunction := f, functionName := fname } : UK3D n) an
      have ea := UK3D.reAniso_aniso ({ s with
        variogramModel := .name name, model := model, variogramFunction := f, functionName := fname } : UK3D n) an
      generalize UK3D.reAniso _ an = s1 at hk hu e4 ea
      dsimp only at e4
      obtain ⟨em, eg, ef, efn⟩ := e4
      have hpts := hk.pts
      rw [ea] at hpts
      split at hu
      · simp at hu
      · next vp hm =>
        split at hu
        · simp at hu
        · next lags ps hi =>
          split at hu
          · simp at hu
          · next st hs =>
            simp only [Prod.mk.injEq, true_and] at hu
            subst hu
            have hs' : findStatistics s1.pts s1.VALUES f ps "euclidean" s1.pseudoInv = .ok st := hs
            rw [hk.V, hk.pinv, hpts] at hs'
            rw [hk.V, hpts] at hi
            have e0 : (fun i => adjustPoint3 s1.XCENTER s1.YCENTER s1.ZCENTER an (x i) (y i) (z i) 0) = s1.X_ADJUSTED := by
              funext i
              have := congrFun (congrFun hpts i) 0
              simpa [UK3D.pts] using this.symm
            have e1 : (fun i => adjustPoint3 s1.XCENTER s1.YCENTER s1.ZCENTER an (x i) (y i) (z i) 1) = s1.Y_ADJUSTED := by
              funext i
              have := congrFun (congrFun hpts i) 1
              simpa [UK3D.pts] using this.symm
            have e2 : (fun i => adjustPoint3 s1.XCENTER s1.YCENTER s1.ZCENTER an (x i) (y i) (z i) 2) = s1.Z_ADJUSTED := by
              funext i
              have := congrFun (congrFun hpts i) 2
              simpa [UK3D.pts] using this.symm
            unfold UK3D.create UK3DArgs.withUpdate
            rw [if_neg (not_not.2 h.ptype)]
            simp only [hk.exact, py_pure, py_ok_bind, hr, hf, hk.xc, hk.yc, hk.zc, hm, hi, hs', hk.spec, hk.func]
            simp [hk.X, hk.Y, hk.Zo, hk.V, hk.pinv, hk.pinvType, em, eg, ef, efn, ea, e0, e1, e2, hk.regional]

/-- An update with settings the constructor accepts is accepted. -/
theorem OK3D.update_accepts {n : ℕ} {env : Env} {x y z v : Fin n → ℝ} {args : OK3DArgs} {s t : OK3D n}
    (h : s.Keeps x y z v args) {u : Update3D} (hc : OK3D.create env x y z v (args.withUpdate u) = .ok t) :
    ∃ s', OK3D.update env s u = (.ok (), s') := by
  obtain ⟨hpt, exact, name, model, fArg, pArg, an, f, fname, xc, yc, zc, vp, lags, ps, stats, h1, hr, hf, hxc, hyc, hzc, hm, hi, hs, -⟩ := OK3D.create_ok hc
  have hr' : OK3D.resolveModel env u.variogramModel u.variogramFunction u.params u.aniso =
    .ok (name, model, fArg, pArg, an) := hr
  have hs' : findStatistics _ _ f ps "euclidean" args.pseudoInv = .ok stats := hs
  have hi' : initializeVariogramModel env _ _ name vp f u.nlags u.weight "euclidean" = .ok (lags, ps) := hi
  have h1 : ({ s with
      variogramModel := .name name, model := model, variogramFunction := f, functionName := fname } : OK3D n).Keeps x y z v args :=
    h.congr rfl rfl rfl rfl rfl rfl rfl rfl rfl rfl rfl rfl rfl rfl
  have hk := OK3D.reAniso_keeps h1 an
  have ea := OK3D.reAniso_aniso ({ s with
      variogramModel := .name name, model := model, variogramFunction := f, functionName := fname } : OK3D n) an
  unfold OK3D.update
  simp only [hr', hf, hm]
  generalize OK3D.reAniso _ an = s1 at hk ea ⊢
  have hpts := hk.pts
  rw [ea] at hpts
  rw [← Except.ok.inj (hxc.symm.trans hk.xc)] at hpts
  rw [← Except.ok.inj (hyc.symm.trans hk.yc)] at hpts
  rw [← Except.ok.inj (hzc.symm.trans hk.zc)] at hpts
  rw [← hpts, ← hk.V] at hi' hs'
  rw [← hk.pinv] at hs'
  simp only [hi']
  have hs'' : findStatistics ({ s1 with lags := lags, params := ps } : OK3D n).pts s1.VALUES f ps "euclidean"
    s1.pseudoInv = .ok stats := hs'
  rw [hs'']
  exact ⟨_, rfl⟩

/-- An update with settings the constructor accepts is accepted. -/
theorem UK.update_accepts {n : ℕ} {env : Env} {sc₀ an₀ : ℝ} {x y z : Fin n → ℝ} {args : UKArgs} {s t : UK n}
    (h : s.Keeps sc₀ an₀ x y z args) {u : OKUpdate} (hc : UK.create env x y z (args.withUpdate u) = .ok t) :
    ∃ s', UK.update env s u = (.ok (), s') := by
  obtain ⟨hpt, exact, name, model, fArg, pArg, sc, an, f, fname, xc, yc, vp, lags, ps, stats, ext, plog, spec, func, h1, hr, hf, hxc, hyc, hm, hi, hs, -⟩ := UK.create_ok hc
  have hr' : UK.resolveModel env u.variogramModel u.variogramFunction u.params u.anisotropyScaling u.anisotropyAngle =
    .ok (name, model, fArg, pArg, sc, an) := hr
  have hs' : findStatistics _ _ f ps "euclidean" args.pseudoInv = .ok stats := hs
  have hi' : initializeVariogramModel env _ _ name vp f u.nlags u.weight "euclidean" = .ok (lags, ps) := hi
  have h1 : ({ s with
      variogramModel := .name name, model := model, variogramFunction := f, functionName := fname } : UK n).Keeps sc₀ an₀ x y z args :=
    h.congr rfl rfl rfl rfl rfl rfl rfl rfl rfl rfl rfl rfl rfl rfl rfl rfl rfl
  have hk := UK.reAniso_keeps h1 sc an
  have ea := UK.reAniso_aniso ({ s with
      variogramModel := .name name, model := model, variogramFunction := f, functionName := fname } : UK n) sc an
  unfold UK.update
  simp only [hr', hf, hm]
  generalize UK.reAniso _ sc an = s1 at hk ea ⊢
  have hpts := hk.pts
  rw [ea.1, ea.2] at hpts
  rw [← Except.ok.inj (hxc.symm.trans hk.xc)] at hpts
  rw [← Except.ok.inj (hyc.symm.trans hk.yc)] at hpts
  rw [← hpts, ← hk.V] at hi' hs'
  rw [← hk.pinv] at hs'
  simp only [hi']
  have hs'' : findStatistics ({ s1 with lags := lags, params := ps } : UK n).pts s1.Z f ps "euclidean"
    s1.pseudoInv = .ok stats := hs'
  rw [hs'']
  exact ⟨_, rfl⟩

/-- An update with settings the constructor accepts is accepted. -/
theorem UK3D.update_accepts {n : ℕ} {env : Env} {x y z v : Fin n → ℝ} {args : UK3DArgs} {s t : UK3D n}
    (h : s.Keeps x y z v args) {u : Update3D} (hc : UK3D.create env x y z v (args.withUpdate u) = .ok t) :
    ∃ s', UK3D.update env s u = (.ok (), s') := by
  obtain ⟨hpt, exact, name, model, fArg, pArg, an, f, fname, xc, yc, zc, vp, lags, ps, stats, spec, func, h1, hr, hf, hxc, hyc, hzc, hm, hi, hs, -⟩ := UK3D.create_ok hc
  have hr' : OK3D.resolveModel env u.variogramModel u.variogramFunction u.params u.aniso =
    .ok (name, model, fArg, pArg, an) := hr
  have hs' : findStatistics _ _ f ps "euclidean" args.pseudoInv = .ok stats := hs
  have hi' : initializeVariogramModel env _ _ name vp f u.nlags u.weight "euclidean" = .ok (lags, ps) := hi
  have h1 : ({ s with
      variogramModel := .name name, model := model, variogramFunction := f, functionName := fname } : UK3D n).Keeps x y z v args :=
    h.congr rfl rfl rfl rfl rfl rfl rfl rfl rfl rfl rfl rfl rfl rfl rfl rfl rfl
  have hk := UK3D.reAniso_keeps h1 an
  have ea := UK3D.reAniso_aniso ({ s with
      variogramModel := .name name, model := model, variogramFunction := f, functionName := fname } : UK3D n) an
  unfold UK3D.update
  simp only [hr', hf, hm]
  generalize UK3D.reAniso _ an = s1 at hk ea ⊢
  have hpts := hk.pts
  rw [ea] at hpts
  rw [← Except.ok.inj (hxc.symm.trans hk.xc)] at hpts
  rw [← Except.ok.inj (hyc.symm.trans hk.yc)] at hpts
  rw [← Except.ok.inj (hzc.symm.trans hk.zc)] at hpts
  rw [← hpts, ← hk.V] at hi' hs'
  rw [← hk.pinv] at hs'
  simp only [hi']
  have hs'' : findStatistics ({ s1 with lags := lags, params := ps } : UK3D n).pts s1.VALUES f ps "euclidean"
    s1.pseudoInv = .ok stats := hs'
  rw [hs'']
  exact ⟨_, rfl⟩

end
end PyKrige
