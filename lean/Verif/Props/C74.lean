import Verif.Model.Race
import Verif.Lemmas.Update
import Verif.Props.C26

/-!
# C74: `execute` while another thread updates the variogram

One thread calls `execute`, another `update_variogram_model` on the same `OrdinaryKriging` object, without a lock. One
would wish that `execute` returns what it would have returned before the update or after it. It need not
(`C74_torn_wrong`): it may build the matrix with the old variogram and the right-hand sides with the new one, and return
even a negative variance. It does

* if all its reads come before the first assignment of the update, or all after the last one (`C74_serial`), and
* under every interleaving if the update repeats the settings in force (`C74_same`).
-/

set_option linter.unusedSectionVars false

namespace PyKrige
noncomputable section
open Matrix Spec

/-- The state after the last step is the one `update_variogram_model` leaves behind, whether it succeeds or raises, and the
state before the first step is the one it starts from. -/
theorem C74_steps {n : ℕ} (env : Env) (s : OK n) (u : OKUpdate) :
    (OK.updateSteps env s u).head? = some s ∧ (OK.updateSteps env s u).getLast? = some (OK.update env s u).2 := by
  constructor
  · rfl
  have hr : ∀ (t : OK n) sc an, (t :: t.anisoSteps sc an).getLast? = some (t.reAniso sc an) := by
    intro t sc an
    unfold OK.anisoSteps OK.reAniso
    split_ifs <;> simp
  unfold OK.updateSteps OK.update
  dsimp only
  generalize OK.resolveModel env s.coordinatesType u.variogramModel u.variogramFunction u.params u.anisotropyScaling u.anisotropyAngle = R
  match R with
  | .error e => cases u.variogramModel <;> simp
  | .ok (name, model, fArg, pArg, scaling, angle) =>
    dsimp only
    generalize chooseFunction name fArg = C
    match C with
    | .error e => simp
    | .ok (f, fname) =>
      dsimp only
      have h1 := hr { s with model := model, variogramModel := .name name, variogramFunction := f, functionName := fname } scaling angle
      generalize makeVariogramParameterList name pArg = M
      match M with
      | .error e => 
        dsimp only
        rw [List.append_nil]
        simp only [List.singleton_append]
        rw [List.getLast?_append, List.getLast?_append, h1]
        rfl
      | .ok vp =>
        dsimp only
        generalize initializeVariogramModel env _ _ name vp f u.nlags u.weight _ = I
        match I with
        | .error e =>
          dsimp only
          rw [List.append_nil]
          simp only [List.singleton_append]
          rw [List.getLast?_append, List.getLast?_append, h1]
          rfl
        | .ok (lags, ps) =>
          dsimp only
          generalize findStatistics _ _ f ps _ _ = F
          match F with
          | .error e => simp [List.getLast?_append, List.getLast?_cons]
          | .ok st => simp [List.getLast?_append, List.getLast?_cons]

/-- Two states that `execute` cannot tell apart: they agree in everything but the name of the model, the GSTools object, the
lags and the statistics. -/
def OK.SameForExecute {n : ℕ} (t s : OK n) : Prop :=
  t = { s with variogramModel := t.variogramModel, model := t.model, lags := t.lags, stats := t.stats }

theorem mapM_zipIdx {α β : Type} (f : α → Py β) (l : List α) (k : ℕ) : (l.zipIdx k).mapM (fun p => f p.1) = l.mapM f := by
  induction l generalizing k with
  | nil => rfl
  | cons a l ih => simp only [List.zipIdx_cons, List.mapM_cons, ih]

theorem OK.executeSeen_same {n : ℕ} (env : Env) {seen : ℕ → OK n} {s : OK n} (h : ∀ k, (seen k).SameForExecute s) (ea : ExecArgs) :
    OK.executeSeen env seen ea = s.execute env ea := by
  have e0 : (seen 0).getKrigingMatrix = s.getKrigingMatrix := by rw [h 0]; rfl
  have e1 : (seen 1).adjustQuery = s.adjustQuery := by rw [h 1]; rfl
  have e2 : (seen 2).neighbours env = s.neighbours env := by rw [h 2]; rfl
  have e3 : (seen 2).movingWindow env = s.movingWindow env := by rw [h 2]; rfl
  have e4 : (seen 2).queryDist = s.queryDist := by rw [h 2]; rfl
  have e5 : (seen 2).globalKrige = s.globalKrige := by rw [h 2]; rfl
  have e6 : ∀ k, (seen k).loopBody = s.loopBody := fun k => by rw [h k]; rfl
  have e7 : ∀ k, (seen k).windowBody = s.windowBody := fun k => by rw [h k]; rfl
  have e8 : (seen 2).pseudoInv = s.pseudoInv := by rw [h 2]
  have e9 : (seen 2).pseudoInvType = s.pseudoInvType := by rw [h 2]
  have e10 : OK.execLoopSeen seen = s.execLoop := by
    funext a bd mask
    unfold OK.execLoopSeen OK.execLoop
    simp only [e6, e8, e9]
    congr 1
    funext ai
    exact mapM_zipIdx (fun p : (Fin n → ℝ) × Bool => if p.2 then pure (0, 0) else s.loopBody ai p.1) _ 0
  have e11 : OK.execLoopMovingWindowSeen seen = s.execLoopMovingWindow := by
    funext a ws mask
    unfold OK.execLoopMovingWindowSeen OK.execLoopMovingWindow
    simp only [e7]
    exact mapM_zipIdx (fun p : Window n × Bool => if p.2 then pure (0, 0) else s.windowBody a p.1) _ 0
  have m1 : OK.movingWindowSeen env seen = s.movingWindow env := by
    funext a qs mask b k
    unfold OK.movingWindowSeen
    rw [e2, e3, e11]
    split
    · next hb =>
      unfold OK.movingWindow
      rw [if_pos hb.2]
      dsimp only
      rw [if_pos hb.1]
    · rfl
  have m2 : OK.globalKrigeSeen seen = s.globalKrige := by
    funext a qs mask b
    unfold OK.globalKrigeSeen
    rw [e4, e5, e10]
    split
    · next hb =>
      subst hb
      unfold OK.globalKrige
      simp
    · rfl
  unfold OK.executeSeen OK.execute
  simp only [e0, e1, m1, m2]
  rfl

/-- If every read of `execute` sees the object as it was before the update, or every read sees it as the update left it,
`execute` returns what it returns before, or after, the update. -/
theorem C74_serial {n : ℕ} (env : Env) (s : OK n) (u : OKUpdate) (ea : ExecArgs) {seen : ℕ → OK n} :
    ((∀ k, seen k = s) → OK.executeSeen env seen ea = s.execute env ea) ∧
    ((∀ k, seen k = (OK.update env s u).2) → OK.executeSeen env seen ea = (OK.update env s u).2.execute env ea) :=
  ⟨fun h => OK.executeSeen_same env (fun k => by rw [h k]; rfl) ea, fun h => OK.executeSeen_same env (fun k => by rw [h k]; rfl) ea⟩

/-- The coordinates of the object are those of the anisotropy `sc`, `an`. -/
theorem OK.anisoSteps_same {n : ℕ} {s : OK n} {sc an : ℝ}
    (he : s.coordinatesType = "euclidean" → s.anisotropyScaling = sc ∧ s.anisotropyAngle = an)
    (hg : s.coordinatesType ≠ "euclidean" → s.anisotropyScaling = 1 ∧ s.anisotropyAngle = 0 ∧ s.X_ADJUSTED = s.X_ORIG ∧ s.Y_ADJUSTED = s.Y_ORIG) :
    (∀ t ∈ s.anisoSteps sc an, t = s) ∧ s.reAniso sc an = s := by
  unfold OK.anisoSteps OK.reAniso
  by_cases h : s.coordinatesType = "euclidean"
  · obtain ⟨h1, h2⟩ := he h
    have hn : ¬ (sc ≠ s.anisotropyScaling ∨ an ≠ s.anisotropyAngle) := by simp [h1, h2]
    rw [if_neg hn, if_neg hn]
    simp
  · obtain ⟨h1, h2, h3, h4⟩ := hg h
    rw [if_neg h, if_neg h]
    have a1 : { s with anisotropyScaling := 1 } = s := by clear he hg; cases s; simp_all
    have b : { s with anisotropyScaling := 1, anisotropyAngle := 0, X_ADJUSTED := s.X_ORIG, Y_ADJUSTED := s.Y_ORIG } = s := by
      clear he hg; cases s; simp_all
    have b3 : { s with anisotropyScaling := 1, anisotropyAngle := 0, X_ADJUSTED := s.X_ORIG } = s := by
      clear he hg; cases s; simp_all
    have b2 : { s with anisotropyScaling := 1, anisotropyAngle := 0 } = s := by
      clear he hg; cases s; simp_all
    split_ifs
    · refine ⟨fun t ht => ?_, b⟩
      simp only [List.mem_cons, List.not_mem_nil, or_false] at ht
      rcases ht with rfl | rfl | rfl | rfl
      exacts [a1, b2, b3, b]
    · exact ⟨by simp, rfl⟩
    · exact ⟨by simp, rfl⟩

/-- Under every interleaving, an update that repeats the settings the object was constructed with is not noticed: whatever
states between the assignments of the update `execute` sees at its moments of reading, it returns the same. -/
theorem C74_same {n : ℕ} {env : Env} {x y z : Fin n → ℝ} {args : OKArgs} {s : OK n} (h : OK.create env x y z args = .ok s)
    {u : OKUpdate} (hu : args.withUpdate u = args) {seen : ℕ → OK n} (hs : ∀ k, seen k ∈ OK.updateSteps env s u) (ea : ExecArgs) :
    OK.executeSeen env seen ea = s.execute env ea := by
  refine OK.executeSeen_same env (fun k => ?_) ea
  have ht := hs k
  generalize seen k = t at ht
  clear hs k seen
  obtain ⟨hp, exact, name, model, fArg, pArg, sc₀, an₀, f, fname, xc, yc, sc, an, adj, vp, lags, ps, stats,
    h1, h2, h3, h4, h5, h6, h7, hse⟩ := OK.create_ok h
  have u1 : u.variogramModel = args.variogramModel := congrArg OKArgs.variogramModel hu
  have u2 : u.params = args.params := congrArg OKArgs.params hu
  have u3 : u.paramsAllInt = args.paramsAllInt := congrArg OKArgs.paramsAllInt hu
  have u4 : u.variogramFunction = args.variogramFunction := congrArg OKArgs.variogramFunction hu
  have u5 : u.nlags = args.nlags := congrArg OKArgs.nlags hu
  have u6 : u.weight = args.weight := congrArg OKArgs.weight hu
  have u7 : u.anisotropyScaling = args.anisotropyScaling := congrArg OKArgs.anisotropyScaling hu
  have u8 : u.anisotropyAngle = args.anisotropyAngle := congrArg OKArgs.anisotropyAngle hu
  have c1 : s.coordinatesType = args.coordinatesType := by rw [hse]
  have c2 : s.variogramFunction = f := by rw [hse]
  have c3 : s.functionName = fname := by rw [hse]
  have c4 : s.pts = adj := by
    rw [hse]
    unfold OK.pts
    exact adjusted_eta adj
  have c5 : s.Z = z := by rw [hse]
  have c6 : s.params = ps := by rw [hse]
  have c7 : s.paramsInt = intParams pArg ps args.paramsAllInt := by rw [hse]
  have d1 : s.coordinatesType = "euclidean" → s.anisotropyScaling = sc₀ ∧ s.anisotropyAngle = an₀ := by
    intro he
    rw [c1] at he
    unfold OK.setupCoordinates at h4
    rw [if_pos he] at h4
    obtain ⟨xc', hx, h4⟩ := py_bind_eq_ok.1 h4
    obtain ⟨yc', hy, h4⟩ := py_bind_eq_ok.1 h4
    simp only [py_pure, Except.ok.injEq, Prod.mk.injEq] at h4
    rw [hse]
    exact ⟨h4.2.2.1.symm, h4.2.2.2.1.symm⟩
  have d2 : s.coordinatesType ≠ "euclidean" → s.anisotropyScaling = 1 ∧ s.anisotropyAngle = 0 ∧ s.X_ADJUSTED = s.X_ORIG ∧
      s.Y_ADJUSTED = s.Y_ORIG := by
    intro he
    rw [c1] at he
    unfold OK.setupCoordinates at h4
    rw [if_neg he] at h4
    split at h4
    · simp only [Except.ok.injEq, Prod.mk.injEq] at h4
      obtain ⟨-, -, rfl, rfl, rfl⟩ := h4
      rw [hse]
      simp
    · simp at h4
  unfold OK.updateSteps at ht
  dsimp only at ht
  rw [c1, u1, u2, u4, u7, u8, h2] at ht
  dsimp only at ht
  rw [h3] at ht
  dsimp only at ht
  obtain ⟨k1, k2⟩ := OK.anisoSteps_same (s := { s with model := model, variogramModel := .name name, variogramFunction := f, functionName := fname })
    (sc := sc₀) (an := an₀) d1 d2
  rw [c1] at k1 k2
  rw [k2, h5] at ht
  dsimp only at ht
  have h6' : initializeVariogramModel env s.pts s.Z name vp f args.nlags args.weight args.coordinatesType = .ok (lags, ps) := by
    rw [c4, c5]; exact h6
  have e6 : initializeVariogramModel env (fun i => ![s.X_ADJUSTED i, s.Y_ADJUSTED i])
      s.Z name vp f u.nlags u.weight args.coordinatesType = .ok (lags, ps) := by rw [u5, u6]; exact h6'
  unfold OK.pts at ht
  dsimp only at ht
  rw [e6] at ht
  dsimp only at ht
  generalize findStatistics _ _ f ps _ _ = F at ht
  unfold OK.SameForExecute
  simp only [List.mem_append, List.mem_cons, List.not_mem_nil, or_false] at ht
  rcases ht with (rfl | rfl | rfl) | (rfl | rfl) | (rfl | ht) | (rfl | rfl) | ht
  · rfl
  · simp only [c1]
  · simp only [c1]
  · simp only [c1]
  · simp only [c1]
  · simp only [c1, c2, c3]
  · rw [k1 t ht]
    simp only [c1, c2, c3]
  · simp only [c1, c2, c3]
  · simp only [c1, c2, c3, c6, c7, u3]
  · cases F with
    | error e => simp at ht
    | ok st =>
      simp only [List.mem_cons, List.not_mem_nil, or_false] at ht
      rw [ht]
      simp only [c1, c2, c3, c6, c7, u3]

/-! ### In general `execute` may see half an update -/

namespace Demo

/-- An update to the slope 1/10. -/
def slow : OKUpdate := { variogramModel := .name "linear", params := .list [1 / 10, 0] }

theorem slow_update {z : Fin 2 → ℝ} {s : OK 2} (h : OK.create stdEnv X O z (args 0 true false) = .ok s) :
    ∃ lags st, OK.update stdEnv s slow = (.ok (), { s with
      variogramModel := .name "linear", model := none, variogramFunction := linearVariogramModel,
      functionName := "linear_variogram_model", lags := lags, params := [1 / 10, 0], paramsInt := false, stats := some st }) := by
  obtain ⟨s', h', hp, hv, hn, hsc, han, -⟩ := ok z 0 true false
  rw [h] at h'; cases h'
  have hct : s.coordinatesType = "euclidean" := (OK.create_fields h).2.2.2.2.1
  obtain ⟨ev, hev⟩ := expVar_ok s.pts s.Z 6
  obtain ⟨st, hst⟩ := stats_ok s.pts s.Z (f := linearVariogramModel) (ps := [1 / 10, 0]) (γ := linearFormula (1 / 10) 0)
    (by simp [linearVariogramModel, pyGet]) s.pseudoInv
  refine ⟨ev, st, ?_⟩
  have hre : ∀ t : OK 2, t.anisotropyScaling = 1 → t.anisotropyAngle = 0 → t.reAniso 1 0 = t := by
    intro t h1 h2
    unfold OK.reAniso
    rw [h1, h2, if_neg (by simp)]
  unfold OK.update slow
  simp only [OK.resolveModel]
  have hc : chooseFunction "linear" .none = .ok (linearVariogramModel, "linear_variogram_model") := by
    simp [chooseFunction, variogramDict, variogramFunctionName]
  have hm : makeVariogramParameterList "linear" (.list [1 / 10, 0]) = .ok (some [1 / 10, 0]) := by
    simp [makeVariogramParameterList]
  rw [hc, hm]
  dsimp only
  have er := hre ({ s with
      variogramModel := .name "linear", model := none, variogramFunction := linearVariogramModel,
      functionName := "linear_variogram_model" } : OK 2) hsc han
  rw [er]
  have hi : initializeVariogramModel stdEnv s.pts s.Z "linear" (some [1 / 10, 0]) linearVariogramModel 6 false s.coordinatesType =
      .ok (ev, [1 / 10, 0]) := by
    unfold initializeVariogramModel
    rw [hct, hev]
    simp
  unfold OK.pts at hi hst ⊢
  dsimp only
  rw [hi]
  dsimp only
  rw [hct, hst]
  simp [intParams]

end Demo

/-- The wish is not fulfilled. Data at `(0, 0)` and `(1, 0)`, linear variogram of slope 1. While `execute` is computing the
prediction at `(2, 0)`, another thread updates the slope to 1/10. `execute` before the update gives the variance 2, after it
1/5. If the update falls between building the matrix and the rest, `execute` returns the variance -41/200 without complaint. -/
theorem C74_torn_wrong : ∃ (s s' : OK 2) (u : OKUpdate) (ea : ExecArgs) (seen : ℕ → OK 2) (r₀ r₁ r : ExecResult),
    OK.create stdEnv Demo.X Demo.O Demo.X (Demo.args 0 true false) = .ok s ∧ OK.update stdEnv s u = (.ok (), s') ∧
    seen 0 = s ∧ (∀ k, seen (k + 1) = s') ∧ (∀ k, seen k ∈ OK.updateSteps stdEnv s u) ∧
    s.execute stdEnv ea = .ok r₀ ∧ s'.execute stdEnv ea = .ok r₁ ∧ OK.executeSeen stdEnv seen ea = .ok r ∧
    r₀.ss = [some 2] ∧ r₁.ss = [some (1 / 5)] ∧ r.ss = [some (-41 / 200)] := by
  obtain ⟨s, h, hp, hv, hn, hsc, han, -⟩ := Demo.ok Demo.X 0 true false
  obtain ⟨lags, st, hu⟩ := Demo.slow_update h
  have hct : s.coordinatesType = "euclidean" := (OK.create_fields h).2.2.2.2.1
  have ha := Demo.admissible (c := 0) (exact := true) (pseudo := false) hn [] "loop"
  have hwf := OK.create_wf h ha.noClash ha.range
  have hpts := Demo.ok_pts h
  have hk := (OK.create_keeps h).coords
  have hq : s.queryPt (2, 0) = ![2, 0] := by
    unfold OK.setupCoordinates at hk
    rw [if_pos (by rfl), Demo.midrange_X, Demo.midrange_O] at hk
    simp only [py_ok_bind, py_pure, Except.ok.injEq, Prod.mk.injEq] at hk
    unfold OK.queryPt
    rw [if_pos hct, ← hk.1, ← hk.2.1, hsc, han, Demo.adjust_sc, one_mul]
  obtain ⟨r₀, hr₀, e₀⟩ := Demo.run20 hwf hct one_pos (by rw [hv, hp, Demo.vario]; simp) hpts hq
  set s' : OK 2 := { s with
      variogramModel := .name "linear", model := none, variogramFunction := linearVariogramModel,
      functionName := "linear_variogram_model", lags := lags, params := [1 / 10, 0], paramsInt := false, stats := some st } with hs'
  have hγ' : s'.variogramFunction s'.params = .ok fun d => 1 / 10 * d := by
    change linearVariogramModel [1 / 10, 0] = _
    have : linearFormula (1 / 10) 0 = fun d => 1 / 10 * d := by funext d; simp [linearFormula]
    rw [← this]
    rfl
  have hwf' : s'.Wf := by
    have w := OK.create_wf (OK.update_fresh (OK.create_keeps h) hu) trivial (show RangeOk "linear_variogram_model" [1 / 10, 0] by simp [RangeOk])
    exact ⟨w.ptype, w.ctype, w.cagree⟩
  obtain ⟨r₁, hr₁, e₁⟩ := Demo.run20 hwf' hct (by norm_num : (0 : ℝ) < 1 / 10) hγ' hpts hq
  have hγ : s.variogramFunction s.params = .ok fun d => d := by rw [hv, hp, Demo.vario]; simp
  have hD : ∀ i k, s.dataDist i k = |Demo.X i - Demo.X k| := by
    intro i k
    unfold OK.dataDist
    rw [if_pos hct, hpts]
    simp [euclid, Fin.sum_univ_two, Demo.O]
    fin_cases i <;> fin_cases k <;> simp [Real.sqrt_sq_eq_abs]
  have hM : s.getKrigingMatrix = .ok !![0, -1, 1; -1, 0, 1; 1, 1, 0] := by
    unfold OK.getKrigingMatrix
    rw [hγ]
    simp only [py_ok_bind, py_pure, hD]
    congr 1
    ext i j
    fin_cases i <;> fin_cases j <;> simp [setBlock, fillDiagonal, setRow, setCol, setEntry, Demo.X]
  have hinv : (!![0, -1, 1; -1, 0, 1; 1, 1, 0] : Matrix (Fin 3) (Fin 3) ℝ)⁻¹ =
      !![1 / 2, -1 / 2, 1 / 2; -1 / 2, 1 / 2, 1 / 2; 1 / 2, 1 / 2, 1 / 2] := by
    apply Matrix.inv_eq_right_inv
    ext i j
    fin_cases i <;> fin_cases j <;> simp [Matrix.mul_apply, Fin.sum_univ_three] <;> norm_num
  have hdet : (!![0, -1, 1; -1, 0, 1; 1, 1, 0] : Matrix (Fin 3) (Fin 3) ℝ).det ≠ 0 := by
    rw [Matrix.det_fin_three]
    simp
  have hI : invertPython s'.pseudoInv s'.pseudoInvType (!![0, -1, 1; -1, 0, 1; 1, 1, 0] : Matrix (Fin 3) (Fin 3) ℝ) =
      .ok !![1 / 2, -1 / 2, 1 / 2; -1 / 2, 1 / 2, 1 / 2; 1 / 2, 1 / 2, 1 / 2] := by
    have : s'.pseudoInv = false := (OK.create_fields h).2.2.1
    rw [this, ← hinv]
    exact if_neg hdet
  have hV : s'.execVector !![0, -1, 1; -1, 0, 1; 1, 1, 0] [![2, 1]] = .ok [(11 / 20, -41 / 200)] := by
    unfold OK.execVector
    have hz : ¬ ∃ row ∈ [(![2, 1] : Fin 2 → ℝ)], ∃ k, |row k| ≤ eps := by
      rintro ⟨row, hr, k, hk⟩
      simp only [List.mem_cons, List.not_mem_nil, or_false] at hr
      subst hr
      rw [eps_eq] at hk
      fin_cases k <;> norm_num at hk
    have hZ : s'.Z = Demo.X := (OK.create_fields h).2.2.2.2.2.2.2
    rw [hI, hγ', hZ]
    simp only [py_ok_bind, py_pure, hz, false_and, if_false]
    simp [Fin.sum_univ_two, Fin.sum_univ_three, setHead, setAt, Matrix.mulVec, dotProduct, Demo.X]
    norm_num
  have hqd : s'.queryDist ![2, 0] = ![2, 1] := by
    funext i
    unfold OK.queryDist
    rw [if_pos hct]
    change euclid ![2, 0] (s.pts i) = _
    rw [hpts]
    fin_cases i <;> simp [euclid, Fin.sum_univ_two, Demo.X, Demo.O]
    norm_num
  have hQ : s'.adjustQuery (Demo.pts [(2, 0)] "vectorized") [(2, 0)] = .ok [![2, 0]] := by
    unfold OK.queryPt at hq
    rw [if_pos hct] at hq
    unfold OK.adjustQuery
    rw [if_pos hct]
    simp only [Demo.pts, Bool.false_and, Bool.false_eq_true, if_false, List.map_cons, List.map_nil]
    exact congrArg (fun a => Except.ok [a]) hq
  refine ⟨s, s', Demo.slow, Demo.pts [(2, 0)] "vectorized", fun k => if k = 0 then s else s', r₀, r₁,
    ⟨[1], [some (11 / 20)], [some (-41 / 200)]⟩, h, hu, rfl, fun k => rfl, ?_, hr₀, hr₁, ?_,
    by rw [e₀]; norm_num, by rw [e₁]; norm_num, rfl⟩
  · obtain ⟨k1, k2⟩ := C74_steps stdEnv s Demo.slow
    rw [hu] at k2
    intro k
    dsimp only
    split
    · exact List.mem_of_mem_head? k1
    · exact List.mem_of_mem_getLast? k2
  · have hg : s'.globalKrige !![0, -1, 1; -1, 0, 1; 1, 1, 0] [![2, 0]] [false] "vectorized" = .ok [(11 / 20, -41 / 200)] := by
      unfold OK.globalKrige
      simp only [List.map_cons, List.map_nil, hqd, if_true]
      exact hV
    unfold OK.executeSeen OK.globalKrigeSeen
    have hqp := Demo.queryPoints_pts [(2, 0)] "vectorized"
    simp only [if_true, Nat.one_ne_zero, OfNat.ofNat_ne_zero, if_false, hM, py_ok_bind, hqp, hQ]
    have hb : (if (Demo.pts [(2, 0)] "vectorized").backend = "C" ∧ ¬ stdEnv.cAvailable = true then "loop"
        else (Demo.pts [(2, 0)] "vectorized").backend) = "vectorized" := by simp [Demo.pts]
    simp only [hb]
    simp [Demo.pts, hg, resultShape, applyMask]

/-- Repeating the update of the settings in force, under every interleaving and for every query. -/
example (z : Fin 2 → ℝ) : ∃ s, OK.create stdEnv Demo.X Demo.O z (Demo.args 0 true false) = .ok s ∧
    ∀ seen : ℕ → OK 2, (∀ k, seen k ∈ OK.updateSteps stdEnv s { variogramModel := .name "linear", params := .list [1, 0] }) →
      ∀ ea, OK.executeSeen stdEnv seen ea = s.execute stdEnv ea := by
  obtain ⟨s, h, -⟩ := Demo.ok z 0 true false
  exact ⟨s, h, fun seen hs ea => C74_same h rfl hs ea⟩

end
end PyKrige
