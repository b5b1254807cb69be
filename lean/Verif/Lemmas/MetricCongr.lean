import Verif.Lemmas.PWCreate
import Verif.Lemmas.Metric

/-! The constructors use the locations only through the distances between them. -/

set_option linter.unusedSectionVars false

namespace PyKrige
noncomputable section
open Matrix Spec

/-- Two sets of locations with the same distances. -/
structure SameDist {n m m' : ℕ} (ct : String) (X : Fin n → Fin m → ℝ) (X' : Fin n → Fin m' → ℝ) : Prop where
  pairs : ∀ y, pairDistances X y ct = pairDistances X' y ct
  krige : ∀ {k : ℕ} (e : Fin k → Fin n) (i : Fin n),
    krigeDistances (fun j => X (e j)) (X i) ct = krigeDistances (fun j => X' (e j)) (X' i) ct

theorem sameDist_euclidean {n m m' : ℕ} {X : Fin n → Fin m → ℝ} {X' : Fin n → Fin m' → ℝ}
    (h : ∀ i j, euclid (X i) (X j) = euclid (X' i) (X' j)) : SameDist "euclidean" X X' := by
  constructor
  · intro y
    unfold pairDistances
    simp only [if_true, h]
  · intro k e i
    unfold krigeDistances
    simp only [if_true, h]

theorem sameDist_geographic {n : ℕ} {X X' : Fin n → Fin 2 → ℝ}
    (h : ∀ i j, greatCircleDistance (X i 0) (X i 1) (X j 0) (X j 1) =
      greatCircleDistance (X' i 0) (X' i 1) (X' j 0) (X' j 1)) : SameDist "geographic" X X' := by
  constructor
  · intro y
    unfold pairDistances
    rw [if_neg (by decide), if_pos rfl, if_neg (by decide), if_pos rfl, dif_pos rfl, dif_pos rfl]
    dsimp only
    congr 1
    refine List.map_congr_left fun p _ => ?_
    exact congrArg (fun t => (t, _)) (h p.2 p.1)
  · intro k e i
    unfold krigeDistances
    rw [if_neg (by decide), if_pos rfl, if_neg (by decide), if_pos rfl, dif_pos rfl, dif_pos rfl]
    dsimp only
    congr 2
    · funext a b; exact h _ _
    · funext a; exact h _ _

section
variable {n m m' : ℕ} {ct : String} {X : Fin n → Fin m → ℝ} {X' : Fin n → Fin m' → ℝ}

theorem SameDist.experimentalVariogram (h : SameDist ct X X') (y : Fin n → ℝ) (nlags : ℕ) :
    experimentalVariogram X y nlags ct = experimentalVariogram X' y nlags ct := by
  unfold PyKrige.experimentalVariogram
  rw [h.pairs]

theorem SameDist.initialize (h : SameDist ct X X') (env : Env) (y : Fin n → ℝ) (model : String)
    (params : Option (List ℝ)) (f : VFun) (nlags : ℕ) (weight : Bool) :
    initializeVariogramModel env X y model params f nlags weight ct =
      initializeVariogramModel env X' y model params f nlags weight ct := by
  unfold initializeVariogramModel
  rw [h.experimentalVariogram]

theorem SameDist.statistics (h : SameDist ct X X') (y : Fin n → ℝ) (f : VFun) (params : List ℝ) (p : Bool) :
    findStatistics X y f params ct p = findStatistics X' y f params ct p := by
  have : statEntry X y f params ct p = statEntry X' y f params ct p := by
    funext i
    unfold statEntry PyKrige.krige
    rw [h.krige]
  unfold findStatistics
  rw [this]

end

theorem OK.resolveModel_eff {env : Env} {ct : String} {vm : ModelArg} {f : FunArg} {p : ParamArg} {sc an : ℝ}
    {name model fArg pArg sc₀ an₀} (h : OK.resolveModel env ct vm f p sc an = .ok (name, model, fArg, pArg, sc₀, an₀)) :
    sc₀ = effScaling vm sc ∧ an₀ = effAngle vm an ∧ ∀ sc' an', OK.resolveModel env ct vm f p sc' an' =
      .ok (name, model, fArg, pArg, effScaling vm sc', effAngle vm an') := by
  unfold OK.resolveModel at h ⊢
  cases vm with
  | name s =>
    simp only [Except.ok.injEq, Prod.mk.injEq] at h
    obtain ⟨rfl, rfl, rfl, rfl, rfl, rfl⟩ := h
    exact ⟨rfl, rfl, fun _ _ => rfl⟩
  | gstools g =>
    dsimp only at h ⊢
    have h' := h
    obtain ⟨u, h1, h⟩ := py_bind_eq_ok.1 h
    split at h
    · simp at h
    · split at h
      · simp at h
      · simp only [py_pure, Except.ok.injEq, Prod.mk.injEq] at h
        obtain ⟨rfl, rfl, rfl, rfl, rfl, rfl⟩ := h
        exact ⟨rfl, rfl, fun _ _ => h'⟩

/-- `OrdinaryKriging` on locations with the same distances. -/
theorem OK.create_metric {n : ℕ} {env : Env} {x y z : Fin n → ℝ} {args : OKArgs} {s : OK n}
    (h : OK.create env x y z args = .ok s) (x' y' : Fin n → ℝ) (sc' an' : ℝ)
    (hd : ∀ i j, distance2 args.coordinatesType (effScaling args.variogramModel args.anisotropyScaling)
        (effAngle args.variogramModel args.anisotropyAngle) (x i, y i) (x j, y j) =
      distance2 args.coordinatesType (effScaling args.variogramModel sc')
        (effAngle args.variogramModel an') (x' i, y' i) (x' j, y' j)) :
    ∃ s', OK.create env x' y' z { args with anisotropyScaling := sc', anisotropyAngle := an' } = .ok s' ∧
      s'.variogramFunction = s.variogramFunction ∧ s'.functionName = s.functionName ∧
      s'.params = s.params ∧ s'.paramsInt = s.paramsInt ∧ s'.exactValues = s.exactValues ∧
      s'.pseudoInv = s.pseudoInv ∧ s'.coordinatesType = s.coordinatesType ∧ s'.Z = s.Z ∧ s'.lags = s.lags ∧
      s'.stats = s.stats ∧ s'.dataDist = s.dataDist ∧
      (∀ p i, s.queryDist (s.queryPt p) i = distance2 args.coordinatesType
        (effScaling args.variogramModel args.anisotropyScaling)
        (effAngle args.variogramModel args.anisotropyAngle) p (x i, y i)) ∧
      ∀ p i, s'.queryDist (s'.queryPt p) i = distance2 args.coordinatesType
        (effScaling args.variogramModel sc')
        (effAngle args.variogramModel an') p (x' i, y' i) := by
  have hh := h
  obtain ⟨hp, exact, name, model, fArg, pArg, sc₀, an₀, f, fname, xc, yc, sc, an, adj, vp, lags, ps, stats,
    h1, h2, h3, h4, h5, h6, h7, hs⟩ := OK.create_ok h
  obtain ⟨rfl, rfl, h2'⟩ := OK.resolveModel_eff h2
  have hn : 0 < n := by
    rcases Nat.eq_zero_or_pos n with rfl | hn
    · exfalso
      unfold initializeVariogramModel PyKrige.experimentalVariogram at h6
      obtain ⟨ev, h6, -⟩ := py_bind_eq_ok.1 h6
      obtain ⟨dg, h6, h7⟩ := py_bind_eq_ok.1 h6
      have : dg = [] := by
        unfold pairDistances at h6
        split at h6
        · simpa [pdistPairs] using h6.symm
        · split at h6
          · rw [dif_pos rfl] at h6
            simpa [lowerPairs] using h6.symm
          · simp at h6
      simp [this, amax] at h7
    · exact hn
  -- the new coordinates
  obtain ⟨xc', yc', sc₁, an₁, adj', h4', hsd, hdist⟩ : ∃ xc' yc' sc₁ an₁ adj',
      OK.setupCoordinates x' y' args.coordinatesType (effScaling args.variogramModel sc')
        (effAngle args.variogramModel an') = .ok (xc', yc', sc₁, an₁, adj') ∧
      SameDist args.coordinatesType adj adj' ∧
      ∀ p q, distance2 args.coordinatesType sc₁ an₁ p q = distance2 args.coordinatesType
        (effScaling args.variogramModel sc') (effAngle args.variogramModel an') p q := by
    unfold OK.setupCoordinates at h4 ⊢
    by_cases he : args.coordinatesType = "euclidean"
    · simp only [if_pos he] at h4 ⊢
      obtain ⟨xc₁, hx, h4⟩ := py_bind_eq_ok.1 h4
      obtain ⟨yc₁, hy, h4⟩ := py_bind_eq_ok.1 h4
      simp only [py_pure, Except.ok.injEq, Prod.mk.injEq] at h4
      obtain ⟨-, -, -, -, rfl⟩ := h4
      have hmid : ∀ v : Fin n → ℝ, ∃ c, midrange v = .ok c := by
        intro v
        unfold midrange
        obtain ⟨k, rfl⟩ : ∃ k, n = k + 1 := ⟨n - 1, by omega⟩
        simp [List.ofFn_succ, amax, amin]
      obtain ⟨xc', hx'⟩ := hmid x'
      obtain ⟨yc', hy'⟩ := hmid y'
      refine ⟨xc', yc', _, _, _, by rw [hx', hy']; rfl, ?_, fun p q => rfl⟩
      rw [he]
      refine sameDist_euclidean fun i j => ?_
      have := hd i j
      simp only [distance2, if_pos he] at this
      unfold adjustData2
      rw [adjust2_euclid _ _ _ (x i, y i) (x j, y j), adjust2_euclid _ _ _ (x' i, y' i) (x' j, y' j), this]
    · simp only [if_neg he] at h4 ⊢
      by_cases hg : args.coordinatesType = "geographic"
      · simp only [if_pos hg, Except.ok.injEq, Prod.mk.injEq] at h4 ⊢
        obtain ⟨-, -, -, -, rfl⟩ := h4
        refine ⟨_, _, _, _, _, ⟨rfl, rfl, rfl, rfl, rfl⟩, ?_, fun p q => by simp [distance2, he]⟩
        rw [hg]
        refine sameDist_geographic fun i j => ?_
        have := hd i j
        simp only [distance2, if_neg he] at this
        rw [← greatCircle_eq, ← greatCircle_eq] at this
        exact this
      · simp [if_neg hg] at h4
  have h6' := h6
  rw [hsd.initialize] at h6'
  have h7' := h7
  rw [hsd.statistics] at h7'
  have hc : OK.create env x' y' z { args with anisotropyScaling := sc', anisotropyAngle := an' } = .ok
      { s with X_ORIG := x', Y_ORIG := y', XCENTER := xc', YCENTER := yc', anisotropyScaling := sc₁
               anisotropyAngle := an₁, X_ADJUSTED := fun i => adj' i 0, Y_ADJUSTED := fun i => adj' i 1 } := by
    subst hs
    unfold OK.create
    rw [if_neg (not_not.2 hp)]
    simp only [py_pure, py_ok_bind, h1, h2' sc' an', h3, h4', h5, h6']
    split at h7'
    · next he =>
      obtain ⟨st, h7'', rfl⟩ := py_map_eq_ok.1 h7'
      simp [he, h7'']
    · next he =>
      cases h7'
      simp [he]
  refine ⟨_, hc, rfl, rfl, rfl, rfl, rfl, rfl, rfl, rfl, rfl, rfl, ?_, ?_, ?_⟩
  · funext i j
    obtain ⟨hpl, -⟩ := OK.create_placed hc
    obtain ⟨hpl0, hx, hy, -⟩ := OK.create_placed hh
    rw [hpl.dataDist, hpl0.dataDist, hx, hy]
    have hct : s.coordinatesType = args.coordinatesType := by rw [hs]
    dsimp only
    rw [hct, hdist, ← hd i j]
    have : ∀ p q, distance2 args.coordinatesType s.anisotropyScaling s.anisotropyAngle p q =
        distance2 args.coordinatesType (effScaling args.variogramModel args.anisotropyScaling)
          (effAngle args.variogramModel args.anisotropyAngle) p q := by
      intro p q
      rw [hs]
      dsimp only
      unfold OK.setupCoordinates at h4
      by_cases he : args.coordinatesType = "euclidean"
      · simp only [if_pos he] at h4
        obtain ⟨xc₁, hx, h4⟩ := py_bind_eq_ok.1 h4
        obtain ⟨yc₁, hy, h4⟩ := py_bind_eq_ok.1 h4
        simp only [py_pure, Except.ok.injEq, Prod.mk.injEq] at h4
        obtain ⟨-, -, rfl, rfl, rfl⟩ := h4
        rfl
      · simp [distance2, he]
    rw [this]
  · intro p i
    obtain ⟨hpl0, hx, hy, -⟩ := OK.create_placed hh
    rw [hpl0.queryDist, hx, hy, hs]
    dsimp only
    unfold OK.setupCoordinates at h4
    by_cases he : args.coordinatesType = "euclidean"
    · simp only [if_pos he] at h4
      obtain ⟨xc₁, hx, h4⟩ := py_bind_eq_ok.1 h4
      obtain ⟨yc₁, hy, h4⟩ := py_bind_eq_ok.1 h4
      simp only [py_pure, Except.ok.injEq, Prod.mk.injEq] at h4
      obtain ⟨-, -, rfl, rfl, rfl⟩ := h4
      rfl
    · simp [distance2, he]
  · intro p i
    obtain ⟨hpl, -⟩ := OK.create_placed hc
    rw [hpl.queryDist]
    dsimp only
    have hct : s.coordinatesType = args.coordinatesType := by rw [hs]
    rw [hct, hdist]

theorem midrange_exists {n : ℕ} (hn : 0 < n) (v : Fin n → ℝ) : ∃ c, midrange v = .ok c := by
  unfold midrange
  obtain ⟨k, rfl⟩ : ∃ k, n = k + 1 := ⟨n - 1, by omega⟩
  simp [List.ofFn_succ, amax, amin]

theorem pos_of_midrange {n : ℕ} {v : Fin n → ℝ} {c : ℝ} (h : midrange v = .ok c) : 0 < n := by
  rcases Nat.eq_zero_or_pos n with rfl | hn
  · simp [midrange, amax] at h
  · exact hn

theorem OK3D.resolveModel_eff {env : Env} {vm : ModelArg} {f : FunArg} {p : ParamArg} {an : Aniso3}
    {name model fArg pArg an₀} (h : OK3D.resolveModel env vm f p an = .ok (name, model, fArg, pArg, an₀)) :
    an₀ = effAniso vm an ∧ ∀ an', OK3D.resolveModel env vm f p an' =
      .ok (name, model, fArg, pArg, effAniso vm an') := by
  unfold OK3D.resolveModel at h ⊢
  cases vm with
  | name s =>
    simp only [Except.ok.injEq, Prod.mk.injEq] at h
    obtain ⟨rfl, rfl, rfl, rfl, rfl⟩ := h
    exact ⟨rfl, fun _ => rfl⟩
  | gstools g =>
    dsimp only at h ⊢
    have h' := h
    obtain ⟨u, h1, h⟩ := py_bind_eq_ok.1 h
    split at h
    · simp at h
    · simp only [py_pure, Except.ok.injEq, Prod.mk.injEq] at h
      obtain ⟨rfl, rfl, rfl, rfl, rfl⟩ := h
      exact ⟨rfl, fun _ => h'⟩

theorem UK.resolveModel_eff {env : Env} {vm : ModelArg} {f : FunArg} {p : ParamArg} {sc an : ℝ}
    {name model fArg pArg sc₀ an₀} (h : UK.resolveModel env vm f p sc an = .ok (name, model, fArg, pArg, sc₀, an₀)) :
    sc₀ = effScaling vm sc ∧ an₀ = effAngle vm an ∧ ∀ sc' an', UK.resolveModel env vm f p sc' an' =
      .ok (name, model, fArg, pArg, effScaling vm sc', effAngle vm an') := by
  unfold UK.resolveModel at h ⊢
  cases vm with
  | name s =>
    simp only [Except.ok.injEq, Prod.mk.injEq] at h
    obtain ⟨rfl, rfl, rfl, rfl, rfl, rfl⟩ := h
    exact ⟨rfl, rfl, fun _ _ => rfl⟩
  | gstools g =>
    dsimp only at h ⊢
    have h' := h
    obtain ⟨u, h1, h⟩ := py_bind_eq_ok.1 h
    split at h
    · simp at h
    · split at h
      · simp at h
      · simp only [py_pure, Except.ok.injEq, Prod.mk.injEq] at h
        obtain ⟨rfl, rfl, rfl, rfl, rfl, rfl⟩ := h
        exact ⟨rfl, rfl, fun _ _ => h'⟩

theorem sameDist3 {n : ℕ} {an an' : Aniso3} {x y z x' y' z' : Fin n → ℝ} (xc yc zc xc' yc' zc' : ℝ)
    (hd : ∀ i j, distance3 an (x i, y i, z i) (x j, y j, z j) =
      distance3 an' (x' i, y' i, z' i) (x' j, y' j, z' j)) :
    SameDist "euclidean" (fun i => adjustPoint3 xc yc zc an (x i) (y i) (z i))
      (fun i => adjustPoint3 xc' yc' zc' an' (x' i) (y' i) (z' i)) := by
  refine sameDist_euclidean fun i j => ?_
  unfold adjustPoint3
  rw [adjust3_euclid _ an (x i, y i, z i) (x j, y j, z j),
    adjust3_euclid _ an' (x' i, y' i, z' i) (x' j, y' j, z' j), hd]

theorem sameDist2 {n : ℕ} {sc an sc' an' : ℝ} {x y x' y' : Fin n → ℝ} (xc yc xc' yc' : ℝ)
    (hd : ∀ i j, anisoDist2 sc an (x i, y i) (x j, y j) =
      anisoDist2 sc' an' (x' i, y' i) (x' j, y' j)) :
    SameDist "euclidean" (adjustData2 x y xc yc sc an) (adjustData2 x' y' xc' yc' sc' an') := by
  refine sameDist_euclidean fun i j => ?_
  unfold adjustData2
  rw [adjust2_euclid _ _ _ (x i, y i) (x j, y j), adjust2_euclid _ _ _ (x' i, y' i) (x' j, y' j), hd]

/-- `OrdinaryKriging3D` on locations with the same distances. -/
theorem OK3D.create_metric {n : ℕ} {env : Env} {x y z v : Fin n → ℝ} {args : OK3DArgs} {s : OK3D n}
    (h : OK3D.create env x y z v args = .ok s) (x' y' z' : Fin n → ℝ) (an' : Aniso3)
    (hd : ∀ i j, distance3 (effAniso args.variogramModel args.aniso) (x i, y i, z i) (x j, y j, z j) =
      distance3 (effAniso args.variogramModel an') (x' i, y' i, z' i) (x' j, y' j, z' j)) :
    ∃ s', OK3D.create env x' y' z' v { args with aniso := an' } = .ok s' ∧
      s'.variogramFunction = s.variogramFunction ∧ s'.params = s.params ∧ s'.exactValues = s.exactValues ∧
      s'.pseudoInv = s.pseudoInv ∧ s'.VALUES = s.VALUES ∧ s'.lags = s.lags ∧
      s'.stats = s.stats ∧ s'.dataDist = s.dataDist ∧
      (∀ p i, s.queryDist (s.queryPt p) i =
        distance3 (effAniso args.variogramModel args.aniso) p (x i, y i, z i)) ∧
      ∀ p i, s'.queryDist (s'.queryPt p) i =
        distance3 (effAniso args.variogramModel an') p (x' i, y' i, z' i) := by
  have hh := h
  obtain ⟨hp, exact, name, model, fArg, pArg, an, f, fname, xc, yc, zc, vp, lags, ps, stats,
    h1, h2, h3, h4, h5, h6, h7, h8, h9, hs⟩ := OK3D.create_ok h
  obtain ⟨rfl, h2'⟩ := OK3D.resolveModel_eff h2
  have hn := pos_of_midrange h4
  obtain ⟨xc', hx'⟩ := midrange_exists hn x'
  obtain ⟨yc', hy'⟩ := midrange_exists hn y'
  obtain ⟨zc', hz'⟩ := midrange_exists hn z'
  have hsd := sameDist3 xc yc zc xc' yc' zc' hd
  have h8' := h8
  rw [hsd.initialize] at h8'
  have h9' := h9
  rw [hsd.statistics] at h9'
  have hc : OK3D.create env x' y' z' v { args with aniso := an' } = .ok
      { s with X_ORIG := x', Y_ORIG := y', Z_ORIG := z', XCENTER := xc', YCENTER := yc', ZCENTER := zc'
               aniso := effAniso args.variogramModel an'
               X_ADJUSTED := fun i => adjustPoint3 xc' yc' zc' (effAniso args.variogramModel an') (x' i) (y' i) (z' i) 0
               Y_ADJUSTED := fun i => adjustPoint3 xc' yc' zc' (effAniso args.variogramModel an') (x' i) (y' i) (z' i) 1
               Z_ADJUSTED := fun i => adjustPoint3 xc' yc' zc' (effAniso args.variogramModel an') (x' i) (y' i) (z' i) 2 } := by
    subst hs
    unfold OK3D.create
    rw [if_neg (not_not.2 hp)]
    simp only [py_pure, py_ok_bind, h1, h2' an', h3, hx', hy', hz', h7, h8', h9']
  refine ⟨_, hc, rfl, rfl, rfl, rfl, rfl, rfl, rfl, ?_, ?_, ?_⟩
  · funext i j
    obtain ⟨hpl, -⟩ := OK3D.create_placed hc
    obtain ⟨hpl0, hx, hy, hz, -⟩ := OK3D.create_placed hh
    rw [hpl.dataDist, hpl0.dataDist, hx, hy, hz]
    have ha : s.aniso = effAniso args.variogramModel args.aniso := by rw [hs]
    rw [ha, hd]
  · intro p i
    obtain ⟨hpl0, hx, hy, hz, -⟩ := OK3D.create_placed hh
    rw [hpl0.queryDist, hx, hy, hz, hs]
  · intro p i
    obtain ⟨hpl, -⟩ := OK3D.create_placed hc
    rw [hpl.queryDist]

end
end PyKrige
