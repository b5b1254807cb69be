import Verif.Lemmas.Embed
import Verif.Lemmas.Accepted
import Verif.Examples.More

/-!
# C55: data in a plane of space

`OrdinaryKriging3D` on data that all lie in one horizontal plane, or all in one vertical section, is `OrdinaryKriging` in
that plane.
-/

namespace PyKrige
noncomputable section
open Matrix Spec

/-! ### What is compared -/

namespace Spec

/-- The arguments of `OrdinaryKriging3D` that say for horizontal planes what `args` says for the plane: same variogram, the
anisotropy in y, the rotation about the vertical axis; any vertical scaling. -/
def level (args : OKArgs) (scalingZ : ℝ) : OK3DArgs :=
  { variogramModel := args.variogramModel, params := args.params, variogramFunction := args.variogramFunction
    nlags := args.nlags, weight := args.weight
    aniso := { scalingY := args.anisotropyScaling, scalingZ := scalingZ, angleZ := args.anisotropyAngle }
    exactValues := args.exactValues, pseudoInv := args.pseudoInv, pseudoInvType := args.pseudoInvType }

/-- The same for vertical sections along the x-axis: the second coordinate of the plane is the height. -/
def upright (args : OKArgs) (scalingY : ℝ) : OK3DArgs :=
  { variogramModel := args.variogramModel, params := args.params, variogramFunction := args.variogramFunction
    nlags := args.nlags, weight := args.weight
    aniso := { scalingY := scalingY, scalingZ := args.anisotropyScaling, angleY := -args.anisotropyAngle }
    exactValues := args.exactValues, pseudoInv := args.pseudoInv, pseudoInvType := args.pseudoInvType }

/-- The call that asks for the same points at height `z₀`: one height for each point, or a grid with one level.  A mask is a
mask for that level. -/
def atHeight (z₀ : ℝ) (ea : ExecArgs) : ExecArgs3 :=
  { style := ea.style, xpoints := ea.xpoints, ypoints := ea.ypoints
    zpoints := ⟨if ea.style = "points" then List.replicate ea.xpoints.vals.length z₀ else [z₀], false⟩
    mask := ea.mask.map fun m =>
      if m.rows = ea.ypoints.vals.length ∧ m.cols = ea.xpoints.vals.length then .arr 1 m.rows m.cols fun _ i j => m.get i j
      else .arr m.rows m.cols 1 fun i j _ => m.get i j
    backend := ea.backend, nClosest := ea.nClosest }

/-- The call that asks for the same points in the section `y = y₀`. -/
def inSection (y₀ : ℝ) (ea : ExecArgs) : ExecArgs3 :=
  { style := ea.style, xpoints := ea.xpoints
    ypoints := ⟨if ea.style = "points" then List.replicate ea.xpoints.vals.length y₀ else [y₀], false⟩
    zpoints := ea.ypoints
    mask := ea.mask.map fun m => .arr m.rows 1 m.cols fun i _ j => m.get i j
    backend := ea.backend, nClosest := ea.nClosest }

end Spec

/-! ### Distances -/

theorem C55_distance_level (args : OKArgs) {m : String} (hm : args.variogramModel = .name m)
    (he : args.coordinatesType = "euclidean") (sz z₀ : ℝ) (p q : ℝ × ℝ) :
    ok3Distance (level args sz) (p.1, p.2, z₀) (q.1, q.2, z₀) = okDistance args p q := by
  unfold ok3Distance okDistance distance2 level
  simp only [hm, effAniso, effScaling, effAngle, if_pos he]
  unfold distance3 anisoDist2 rotX rotY rotZ
  simp [rad]

theorem C55_distance_upright (args : OKArgs) {m : String} (hm : args.variogramModel = .name m)
    (he : args.coordinatesType = "euclidean") (sy y₀ : ℝ) (p q : ℝ × ℝ) :
    ok3Distance (upright args sy) (p.1, y₀, p.2) (q.1, y₀, q.2) = okDistance args p q := by
  unfold ok3Distance okDistance distance2 upright
  simp only [hm, effAniso, effScaling, effAngle, if_pos he]
  unfold distance3 anisoDist2 rotX rotY rotZ
  have e : rad (-args.anisotropyAngle) = -rad args.anisotropyAngle := by unfold rad; ring
  simp [e]
  simp [rad]

/-! ### The calls -/

theorem getElem?_replicate_of_lt {α : Type} {a : α} {k j : ℕ} (h : j < k) : (List.replicate k a)[j]? = some a := by
  simp [h]

theorem embeds_atHeight (z₀ : ℝ) (ea : ExecArgs) : Embeds (fun p => (p.1, p.2, z₀)) ea (atHeight z₀ ea) := by
  refine ⟨rfl, rfl, rfl, by simp [atHeight], fun hq j => ?_, fun hq j p hp => ?_, ?_⟩
  · unfold queryAt3 queryAt atHeight
    dsimp only
    split
    · next hp =>
      cases hx : ea.xpoints.vals[j]? with
      | none => simp
      | some a =>
        obtain ⟨hj, -⟩ := List.getElem?_eq_some_iff.1 hx
        cases hy : ea.ypoints.vals[j]? with
        | none => simp
        | some b => simp [hj]
    · next hp =>
      cases hx : ea.xpoints.vals[j % ea.xpoints.vals.length]? with
      | none => simp
      | some a =>
        cases hy : ea.ypoints.vals[j / ea.xpoints.vals.length]? with
        | none =>
          simp only [Option.bind_eq_bind, Option.bind_some]
          rw [List.getElem?_eq_none_iff] at hy
          by_cases h0 : ea.ypoints.vals.length = 0
          · rw [List.length_eq_zero_iff.1 h0]; simp
          · have : 1 ≤ j / ea.xpoints.vals.length / ea.ypoints.vals.length :=
              (Nat.one_le_div_iff (by omega)).2 hy
            rw [List.getElem?_eq_none (l := [z₀]) (by simpa using this)]
            cases ea.ypoints.vals[j / ea.xpoints.vals.length % ea.ypoints.vals.length]? <;> rfl
        | some b =>
          obtain ⟨hj, -⟩ := List.getElem?_eq_some_iff.1 hy
          rw [Nat.mod_eq_of_lt hj, hy, Nat.div_eq_of_lt hj]
          simp
  · unfold maskedAt3 maskedAt atHeight
    dsimp only
    split
    · next hs =>
      have hp' : ea.style ≠ "points" := by rw [hs]; decide
      unfold queryAt at hp
      rw [if_neg hp'] at hp
      simp only [Option.bind_eq_bind, Option.bind_eq_some_iff] at hp
      obtain ⟨a, ha, b, hb, -⟩ := hp
      obtain ⟨hb, -⟩ := List.getElem?_eq_some_iff.1 hb
      cases ea.mask with
      | none => rfl
      | some m =>
        simp only [Option.map_some]
        by_cases hm : m.rows = ea.ypoints.vals.length ∧ m.cols = ea.xpoints.vals.length
        · rw [if_pos hm]
          simp [hp', hm, Nat.mod_eq_of_lt hb]
        · rw [if_neg hm]
          dsimp only
          rw [if_neg hm, Nat.mod_eq_of_lt hb, Nat.div_eq_of_lt hb, if_neg hp']
          by_cases h1 : m.rows = [z₀].length ∧ m.cols = ea.ypoints.vals.length ∧ 1 = ea.xpoints.vals.length
          · rw [if_pos h1, ← h1.2.2, Nat.mod_one]
          · rw [if_neg h1]
    · rfl
  · rw [queryPoints_ok_iff, queryPoints3_ok_iff]
    unfold atHeight
    dsimp only
    refine or_congr Iff.rfl (or_congr ?_ ?_)
    · refine and_congr_right fun hs => ?_
      rw [if_neg (by rw [hs]; decide)]
      constructor
      · rintro ⟨m, hm, h⟩
        rw [hm]
        by_cases hc : m.rows = ea.ypoints.vals.length ∧ m.cols = ea.xpoints.vals.length
        · exact ⟨1, m.rows, m.cols, _, by rw [Option.map_some, if_pos hc], .inl ⟨rfl, hc.1, hc.2⟩⟩
        · have := h.resolve_left hc
          exact ⟨m.rows, m.cols, 1, _, by rw [Option.map_some, if_neg hc], .inr ⟨this.1, this.2, rfl⟩⟩
      · rintro ⟨d0, d1, d2, get, hm, h⟩
        obtain ⟨m, hm', e⟩ := Option.map_eq_some_iff.1 hm
        refine ⟨m, hm', ?_⟩
        by_cases hc : m.rows = ea.ypoints.vals.length ∧ m.cols = ea.xpoints.vals.length
        · exact .inl hc
        · rw [if_neg hc] at e
          injection e with e1 e2 e3 e4
          subst e1 e2 e3
          simp only [List.length_singleton] at h
          rcases h with h | h
          · exact .inr ⟨h.1.trans h.2.2, h.2.1⟩
          · exact .inr ⟨h.1, h.2.1⟩
    · refine and_congr_right fun hs => ?_
      simp only [hs]
      simp
      exact fun h => h.symm

theorem embeds_inSection (y₀ : ℝ) (ea : ExecArgs) : Embeds (fun p => (p.1, y₀, p.2)) ea (inSection y₀ ea) := by
  refine ⟨rfl, rfl, rfl, by simp [inSection], fun hq j => ?_, fun hq j p hp => ?_, ?_⟩
  · unfold queryAt3 queryAt inSection
    dsimp only
    split
    · next hp =>
      cases hx : ea.xpoints.vals[j]? with
      | none => simp
      | some a =>
        obtain ⟨hj, -⟩ := List.getElem?_eq_some_iff.1 hx
        cases hy : ea.ypoints.vals[j]? with
        | none => simp [hj]
        | some b => simp [hj]
    · next hp =>
      cases hx : ea.xpoints.vals[j % ea.xpoints.vals.length]? with
      | none => simp
      | some a =>
        cases hy : ea.ypoints.vals[j / ea.xpoints.vals.length]? with
        | none => simp [Nat.mod_one, hy]
        | some b => simp [Nat.mod_one, hy]
  · unfold maskedAt3 maskedAt inSection
    dsimp only
    split
    · next hs =>
      have hp' : ea.style ≠ "points" := by rw [hs]; decide
      cases ea.mask with
      | none => rfl
      | some m => simp [hp']
    · rfl
  · rw [queryPoints_ok_iff, queryPoints3_ok_iff]
    unfold inSection
    dsimp only
    refine or_congr Iff.rfl (or_congr ?_ ?_)
    · refine and_congr_right fun hs => ?_
      rw [if_neg (by rw [hs]; decide)]
      constructor
      · rintro ⟨m, hm, h⟩
        rw [hm]
        refine ⟨m.rows, 1, m.cols, _, rfl, ?_⟩
        simpa using h
      · rintro ⟨d0, d1, d2, get, hm, h⟩
        obtain ⟨m, hm', e⟩ := Option.map_eq_some_iff.1 hm
        refine ⟨m, hm', ?_⟩
        injection e with e1 e2 e3 e4
        subst e1 e2 e3
        simpa using h
    · refine and_congr_right fun hs => ?_
      simp only [hs]
      simp

/-! ### The constructors -/

/-- The constructor of the three-dimensional class on the image of two-dimensional data. -/
theorem embed_create {n : ℕ} {env : Env} {x y v x3 y3 z3 : Fin n → ℝ} {args : OKArgs} {an3 : Aniso3} {s : OK n}
    (h : OK.create env x y v args = .ok s) {m : String} (hm : args.variogramModel = .name m)
    (he : args.coordinatesType = "euclidean") {args3 : OK3DArgs}
    (ha3 : args3 = { level args 1 with aniso := an3 })
    (hd : ∀ i j, ok3Distance args3 (x3 i, y3 i, z3 i) (x3 j, y3 j, z3 j) = okDistance args (x i, y i) (x j, y j)) :
    (args.enableStatistics = true → ∃ s3, OK3D.create env x3 y3 z3 v args3 = .ok s3 ∧ s3.stats = s.stats) ∧
    ∀ s3, OK3D.create env x3 y3 z3 v args3 = .ok s3 → s3.lags = s.lags ∧ s3.params = s.params ∧
      s3.variogramFunction = s.variogramFunction ∧ s3.exactValues = s.exactValues ∧ s3.pseudoInv = s.pseudoInv := by
  subst ha3
  have hn : 0 < n := by have := OK.create_two_le h; omega
  obtain ⟨hp, exact, name, model, fArg, pArg, sc₀, an₀, f, fname, xc, yc, sc, an, adj, vp, lags, ps, stats,
    h1, h2, h3, h4, h5, h6, h7, rfl⟩ := OK.create_ok h
  obtain ⟨e1, e2, -⟩ := OK.resolveModel_eff h2
  have hr : OK3D.resolveModel env args.variogramModel args.variogramFunction args.params an3 =
      .ok (name, model, fArg, pArg, an3) := by
    rw [hm] at h2 ⊢
    unfold OK.resolveModel at h2
    simp only [Except.ok.injEq, Prod.mk.injEq] at h2
    obtain ⟨rfl, rfl, rfl, rfl, -⟩ := h2
    rfl
  obtain ⟨xc3, hx⟩ := midrange_exists hn x3
  obtain ⟨yc3, hy⟩ := midrange_exists hn y3
  obtain ⟨zc3, hz⟩ := midrange_exists hn z3
  have hsd : SameDist "euclidean" (fun i => adjustPoint3 xc3 yc3 zc3 an3 (x3 i) (y3 i) (z3 i)) adj := by
    unfold OK.setupCoordinates at h4
    rw [if_pos he] at h4
    obtain ⟨xc₁, hx₁, h4⟩ := py_bind_eq_ok.1 h4
    obtain ⟨yc₁, hy₁, h4⟩ := py_bind_eq_ok.1 h4
    simp only [py_pure, Except.ok.injEq, Prod.mk.injEq] at h4
    obtain ⟨-, -, -, -, rfl⟩ := h4
    refine sameDist_euclidean fun i j => ?_
    have := hd i j
    unfold ok3Distance okDistance distance2 at this
    rw [if_pos he, hm] at this
    simp only [effAniso, effScaling, effAngle, level, hm] at this
    unfold adjustPoint3 adjustData2
    rw [adjust3_euclid _ an3 (x3 i, y3 i, z3 i) (x3 j, y3 j, z3 j), adjust2_euclid _ _ _ (x i, y i) (x j, y j), e1, e2, hm]
    exact this
  rw [he] at h6 h7
  have h6' := h6
  rw [← hsd.initialize] at h6'
  constructor
  · intro hst
    rw [if_pos hst] at h7
    obtain ⟨st, h8, rfl⟩ := py_map_eq_ok.1 h7
    rw [← hsd.statistics] at h8
    have key : ∃ s3, OK3D.create env x3 y3 z3 v { level args 1 with aniso := an3 } = .ok s3 := by
      unfold OK3D.create level
      dsimp only
      rw [if_neg (not_not.2 hp), h1]
      simp only [py_pure, py_ok_bind, hr, h3, hx, hy, hz, h5, h6', h8]
      exact ⟨_, rfl⟩
    obtain ⟨s3, hs3⟩ := key
    refine ⟨s3, hs3, ?_⟩
    obtain ⟨hp', exact', name', model', fArg', pArg', an', f', fname', xc', yc', zc', vp', lags', ps', stats',
      g1, g2, g3, g4, g5, g6, g7, g8, g9, rfl⟩ := OK3D.create_ok hs3
    simp only [level] at g1 g2 g8 g9
    rw [hr] at g2
    cases g2
    rw [h3] at g3; cases g3
    rw [hx] at g4; cases g4
    rw [hy] at g5; cases g5
    rw [hz] at g6; cases g6
    rw [h5] at g7; cases g7
    rw [h6'] at g8; cases g8
    rw [h8] at g9; cases g9
    rfl
  · intro s3 hs3
    obtain ⟨hp', exact', name', model', fArg', pArg', an', f', fname', xc', yc', zc', vp', lags', ps', stats',
      g1, g2, g3, g4, g5, g6, g7, g8, g9, rfl⟩ := OK3D.create_ok hs3
    simp only [level] at g1 g2 g8
    rw [hr] at g2
    cases g2
    rw [h3] at g3; cases g3
    rw [hx] at g4; cases g4
    rw [hy] at g5; cases g5
    rw [hz] at g6; cases g6
    rw [h5] at g7; cases g7
    rw [h6'] at g8; cases g8
    rw [h1] at g1; cases g1
    exact ⟨rfl, rfl, rfl, rfl, rfl⟩

/-- A horizontal plane: the three-dimensional class accepts what the two-dimensional class accepts (statistics are always
computed there) and finds the same experimental variogram, parameters and statistics. -/
theorem C55_create_level {n : ℕ} {env : Env} {x y v : Fin n → ℝ} {args : OKArgs} {s : OK n}
    (h : OK.create env x y v args = .ok s) {m : String} (hm : args.variogramModel = .name m)
    (he : args.coordinatesType = "euclidean") (hst : args.enableStatistics = true) (z₀ sz : ℝ) :
    ∃ s3, OK3D.create env x y (fun _ => z₀) v (level args sz) = .ok s3 ∧
      s3.lags = s.lags ∧ s3.params = s.params ∧ s3.stats = s.stats := by
  obtain ⟨h1, h2⟩ := embed_create (x3 := x) (y3 := y) (z3 := fun _ => z₀) h hm he (args3 := level args sz) rfl
    fun i j => C55_distance_level args hm he sz z₀ (x i, y i) (x j, y j)
  obtain ⟨s3, h3, e⟩ := h1 hst
  exact ⟨s3, h3, (h2 s3 h3).1, (h2 s3 h3).2.1, e⟩

/-- A vertical section. -/
theorem C55_create_upright {n : ℕ} {env : Env} {x y v : Fin n → ℝ} {args : OKArgs} {s : OK n}
    (h : OK.create env x y v args = .ok s) {m : String} (hm : args.variogramModel = .name m)
    (he : args.coordinatesType = "euclidean") (hst : args.enableStatistics = true) (y₀ sy : ℝ) :
    ∃ s3, OK3D.create env x (fun _ => y₀) y v (upright args sy) = .ok s3 ∧
      s3.lags = s.lags ∧ s3.params = s.params ∧ s3.stats = s.stats := by
  obtain ⟨h1, h2⟩ := embed_create (x3 := x) (y3 := fun _ => y₀) (z3 := y) h hm he (args3 := upright args sy) rfl
    fun i j => C55_distance_upright args hm he sy y₀ (x i, y i) (x j, y j)
  obtain ⟨s3, h3, e⟩ := h1 hst
  exact ⟨s3, h3, (h2 s3 h3).1, (h2 s3 h3).2.1, e⟩

/-! ### `execute` -/

/-- Data in a horizontal plane, query points in that plane: a call the two-dimensional class answers, the three-dimensional
class answers with the same numbers (it has no C backend); and conversely (the two-dimensional class does not accept
integer coordinates). -/
theorem C55_level {n : ℕ} {env : Env} {x y v : Fin n → ℝ} {args : OKArgs} {s : OK n} {s3 : OK3D n} {z₀ sz : ℝ}
    (h : OK.create env x y v args = .ok s) {m : String} (hm : args.variogramModel = .name m)
    (he : args.coordinatesType = "euclidean") (h3 : OK3D.create env x y (fun _ => z₀) v (level args sz) = .ok s3)
    {ea : ExecArgs} (ha : Admissible env args s ea.nClosest)
    (ht : NoTies ea.nClosest (queryAt ea) fun p i => okDistance args p (x i, y i)) :
    (∀ r, s.execute env ea = .ok r → ea.backend ≠ "C" →
      ∃ r3, s3.execute env (atHeight z₀ ea) = .ok r3 ∧ r3.z = r.z ∧ r3.ss = r.ss ∧
        r3.shape = if ea.style = "points" then r.shape else 1 :: r.shape) ∧
    (∀ r3, s3.execute env (atHeight z₀ ea) = .ok r3 → ¬ (ea.xpoints.isInt = true ∧ ea.ypoints.isInt = true) →
      ∃ r, s.execute env ea = .ok r ∧ r.z = r3.z ∧ r.ss = r3.ss) := by
  obtain ⟨-, h2⟩ := embed_create (x3 := x) (y3 := y) (z3 := fun _ => z₀) h hm he (args3 := level args sz) rfl
    fun i j => C55_distance_level args hm he sz z₀ (x i, y i) (x j, y j)
  obtain ⟨-, e1, e2, e3, e4⟩ := h2 s3 h3
  obtain ⟨f1, f2⟩ := embed_execute h h3 (by rw [e1, e2]) e3 e4 he
    (fun p q => C55_distance_level args hm he sz z₀ p q) (fun i => rfl) (embeds_atHeight z₀ ea) ha ht
  refine ⟨fun r hr hC => ⟨_, f1 r hr hC, rfl, rfl, ?_⟩, fun r hr hI => ⟨_, f2 r hr hI, rfl, rfl⟩⟩
  have t := ((OK.create_pw h ha).table r hr).shape_eq
  have hs := ((OK.create_pw h ha).ok_iff.1 ⟨r, hr⟩).1.style
  rw [t]
  unfold resultShape3 resultShape atHeight
  simp only [List.mem_cons, List.not_mem_nil, or_false] at hs
  rcases hs with hs | hs | hs <;> simp [hs]

/-- Data in a vertical section, query points in that section. -/
theorem C55_upright {n : ℕ} {env : Env} {x y v : Fin n → ℝ} {args : OKArgs} {s : OK n} {s3 : OK3D n} {y₀ sy : ℝ}
    (h : OK.create env x y v args = .ok s) {m : String} (hm : args.variogramModel = .name m)
    (he : args.coordinatesType = "euclidean") (h3 : OK3D.create env x (fun _ => y₀) y v (upright args sy) = .ok s3)
    {ea : ExecArgs} (ha : Admissible env args s ea.nClosest)
    (ht : NoTies ea.nClosest (queryAt ea) fun p i => okDistance args p (x i, y i)) :
    (∀ r, s.execute env ea = .ok r → ea.backend ≠ "C" →
      ∃ r3, s3.execute env (inSection y₀ ea) = .ok r3 ∧ r3.z = r.z ∧ r3.ss = r.ss) ∧
    (∀ r3, s3.execute env (inSection y₀ ea) = .ok r3 → ¬ (ea.xpoints.isInt = true ∧ ea.ypoints.isInt = true) →
      ∃ r, s.execute env ea = .ok r ∧ r.z = r3.z ∧ r.ss = r3.ss) := by
  obtain ⟨-, h2⟩ := embed_create (x3 := x) (y3 := fun _ => y₀) (z3 := y) h hm he (args3 := upright args sy) rfl
    fun i j => C55_distance_upright args hm he sy y₀ (x i, y i) (x j, y j)
  obtain ⟨-, e1, e2, e3, e4⟩ := h2 s3 h3
  obtain ⟨f1, f2⟩ := embed_execute h h3 (by rw [e1, e2]) e3 e4 he
    (fun p q => C55_distance_upright args hm he sy y₀ p q) (fun i => rfl) (embeds_inSection y₀ ea) ha ht
  exact ⟨fun r hr hC => ⟨_, f1 r hr hC, rfl, rfl⟩, fun r hr hI => ⟨_, f2 r hr hI, rfl, rfl⟩⟩

/-! ### A concrete case -/

/-- Four data on a level of a borehole campaign, estimated with both classes: the level is part of a grid. -/
example (v : Fin 4 → ℝ) (z₀ : ℝ) (xs ys : List ℝ) : ∃ s s3 r r3,
    OK.create stdEnv Demo.x4 Demo.y4 v (Demo.any "spherical" [3, 2, 1]) = .ok s ∧
    OK3D.create stdEnv Demo.x4 Demo.y4 (fun _ => z₀) v (Demo.any3 "spherical" [3, 2, 1]) = .ok s3 ∧
    s.execute stdEnv { style := "grid", xpoints := ⟨xs, false⟩, ypoints := ⟨ys, false⟩ } = .ok r ∧
    s3.execute stdEnv { style := "grid", xpoints := ⟨xs, false⟩, ypoints := ⟨ys, false⟩, zpoints := ⟨[z₀], false⟩ } = .ok r3 ∧
    r3.z = r.z ∧ r3.ss = r.ss ∧ r3.shape = 1 :: r.shape := by
  obtain ⟨s, h, -, ha, hr⟩ := Demo.any_ok (n := 4) (by norm_num) v Demo.sph_valid Demo.sph_grows Demo.inj4
  obtain ⟨s3, h3, -, -⟩ := Demo.any3_ok (n := 4) (z := fun _ => z₀) (by norm_num) v Demo.sph_valid Demo.sph_grows
    (fun i j hij => Demo.inj4 (Prod.ext (congrArg (fun p : ℝ × ℝ × ℝ => p.1) hij) (congrArg (fun p : ℝ × ℝ × ℝ => p.2.1) hij)))
  obtain ⟨r, hr⟩ := hr { style := "grid", xpoints := ⟨xs, false⟩, ypoints := ⟨ys, false⟩ } (.inl rfl)
    (by simp [WindowOk]) (by simp [WindowFits]) (by simp [HasFloats]) (by simp [Supports])
  obtain ⟨r3, a, b, c, d⟩ := (C55_level (sz := 1) h rfl rfl h3
    (ea := { style := "grid", xpoints := ⟨xs, false⟩, ypoints := ⟨ys, false⟩ }) (ha _ (by simp [WindowFits])) (by simp [NoTies])).1
    r hr (by simp)
  exact ⟨s, s3, r, r3, h, h3, hr, a, b, c, d⟩

end
end PyKrige
