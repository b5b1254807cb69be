import Verif.Model.Race3
import Verif.Props.C74Iter

/-!
# C74: `execute` while another thread updates the variogram, `OrdinaryKriging3D`

The same as for `OrdinaryKriging`.
-/

set_option linter.unusedSectionVars false

namespace PyKrige
noncomputable section
open Matrix Spec

/-- The state after the last step is the one `update_variogram_model` leaves behind, whether it succeeds or raises, and the
state before the first step is the one it starts from. -/
theorem C74_steps_3d {n : ℕ} (env : Env) (s : OK3D n) (u : Update3D) :
    (OK3D.updateSteps env s u).head? = some s ∧ (OK3D.updateSteps env s u).getLast? = some (OK3D.update env s u).2 := by
  constructor
  · rfl
  have hr : ∀ (t : OK3D n) an, (t :: t.anisoSteps an).getLast? = some (t.reAniso an) := by
    intro t an
    unfold OK3D.anisoSteps OK3D.reAniso
    split_ifs <;> simp
  unfold OK3D.updateSteps OK3D.update
  dsimp only
  generalize OK3D.resolveModel env u.variogramModel u.variogramFunction u.params u.aniso = R
  match R with
  | .error e => cases u.variogramModel <;> simp
  | .ok (name, model, fArg, pArg, an) =>
    dsimp only
    generalize chooseFunction name fArg = C
    match C with
    | .error e => simp
    | .ok (f, fname) =>
      dsimp only
      have h1 := hr { s with model := model, variogramModel := .name name, variogramFunction := f, functionName := fname } an
      generalize makeVariogramParameterList name pArg = M
      match M with
      | .error e =>
        dsimp only
        rw [List.append_nil]
        simp only [List.singleton_append]
        rw [List.getLast?_append, List.getLast?_append, h1]
        rfl
      | .ok vp =>
        dsimp only
        generalize initializeVariogramModel env _ _ name vp f u.nlags u.weight _ = I
        match I with
        | .error e =>
          dsimp only
          rw [List.append_nil]
          simp only [List.singleton_append]
          rw [List.getLast?_append, List.getLast?_append, h1]
          rfl
        | .ok (lags, ps) =>
          dsimp only
          generalize findStatistics _ _ f ps _ _ = F
          match F with
          | .error e => simp [List.getLast?_append, List.getLast?_cons]
          | .ok st => simp [List.getLast?_append, List.getLast?_cons]

/-- Two states that `execute` cannot tell apart: they agree in everything but the name of the model, the GSTools object, the
lags and the statistics. -/
def OK3D.SameForExecute {n : ℕ} (t s : OK3D n) : Prop :=
  t = { s with variogramModel := t.variogramModel, model := t.model, lags := t.lags, stats := t.stats }

theorem OK3D.executeSeen_same {n : ℕ} (env : Env) {seen : ℕ → OK3D n} {s : OK3D n} (h : ∀ k, (seen k).SameForExecute s) (ea : ExecArgs3) :
    OK3D.executeSeen env seen ea = s.execute env ea := by
  have e0 : (seen 0).getKrigingMatrix = s.getKrigingMatrix := by rw [h 0]; rfl
  have e1 : (seen 1).adjustQuery = s.adjustQuery := by rw [h 1]; rfl
  have e2 : (seen 2).neighbours env = s.neighbours env := by rw [h 2]; rfl
  have e3 : (seen 2).movingWindow env = s.movingWindow env := by rw [h 2]; rfl
  have e4 : (seen 2).queryDist = s.queryDist := by rw [h 2]; rfl
  have e5 : (seen 2).globalKrige = s.globalKrige := by rw [h 2]; rfl
  have e6 : ∀ k, (seen k).loopBody = s.loopBody := fun k => by rw [h k]; rfl
  have e7 : ∀ k, (seen k).windowBody = s.windowBody := fun k => by rw [h k]; rfl
  have e8 : (seen 2).pseudoInv = s.pseudoInv := by rw [h 2]
  have e9 : (seen 2).pseudoInvType = s.pseudoInvType := by rw [h 2]
  have e10 : OK3D.execLoopSeen seen = s.execLoop := by
    funext a bd mask
    unfold OK3D.execLoopSeen OK3D.execLoop
    simp only [e6, e8, e9]
    congr 1
    funext ai
    exact mapM_zipIdx (fun p : (Fin n → ℝ) × Bool => if p.2 then pure (0, 0) else s.loopBody ai p.1) _ 0
  have e11 : OK3D.execLoopMovingWindowSeen seen = s.execLoopMovingWindow := by
    funext a ws mask
    unfold OK3D.execLoopMovingWindowSeen OK3D.execLoopMovingWindow
    simp only [e7]
    exact mapM_zipIdx (fun p : Window n × Bool => if p.2 then pure (0, 0) else s.windowBody a p.1) _ 0
  have m1 : OK3D.movingWindowSeen env seen = s.movingWindow env := by
    funext a qs mask b k
    unfold OK3D.movingWindowSeen
    rw [e2, e3, e11]
    split
    · next hb =>
      unfold OK3D.movingWindow
      rw [if_neg (by omega), if_pos hb.1, if_neg (by omega), if_pos hb.2.2]
    · rfl
  have m2 : OK3D.globalKrigeSeen seen = s.globalKrige := by
    funext a qs mask b
    unfold OK3D.globalKrigeSeen
    rw [e4, e5, e10]
    split
    · next hb =>
      subst hb
      unfold OK3D.globalKrige
      simp
    · rfl
  unfold OK3D.executeSeen OK3D.execute
  simp only [e0, e1, m1, m2]
  rfl

/-- If every read of `execute` sees the object as it was before the update, or every read sees it as the update left it,
`execute` returns what it returns before, or after, the update. -/
theorem C74_serial_3d {n : ℕ} (env : Env) (s : OK3D n) (u : Update3D) (ea : ExecArgs3) {seen : ℕ → OK3D n} :
    ((∀ k, seen k = s) → OK3D.executeSeen env seen ea = s.execute env ea) ∧
    ((∀ k, seen k = (OK3D.update env s u).2) → OK3D.executeSeen env seen ea = (OK3D.update env s u).2.execute env ea) :=
  ⟨fun h => OK3D.executeSeen_same env (fun k => by rw [h k]; rfl) ea, fun h => OK3D.executeSeen_same env (fun k => by rw [h k]; rfl) ea⟩

/-- Under every interleaving, an update that repeats the settings the object was constructed with is not noticed: whatever
states between the assignments of the update `execute` sees at its moments of reading, it returns the same. -/
theorem C74_same_3d {n : ℕ} {env : Env} {x y z v : Fin n → ℝ} {args : OK3DArgs} {s : OK3D n} (h : OK3D.create env x y z v args = .ok s)
    {u : Update3D} (hu : args.withUpdate u = args) {seen : ℕ → OK3D n} (hs : ∀ k, seen k ∈ OK3D.updateSteps env s u) (ea : ExecArgs3) :
    OK3D.executeSeen env seen ea = s.execute env ea := by
  refine OK3D.executeSeen_same env (fun k => ?_) ea
  have ht := hs k
  generalize seen k = t at ht
  clear hs k seen
  obtain ⟨hp, exact, name, model, fArg, pArg, an, f, fname, xc, yc, zc, vp, lags, ps, stats,
    h1, h2, h3, h4, h5, h6, h7, h8, h9, hse⟩ := OK3D.create_ok h
  have u1 : u.variogramModel = args.variogramModel := congrArg OK3DArgs.variogramModel hu
  have u2 : u.params = args.params := congrArg OK3DArgs.params hu
  have u4 : u.variogramFunction = args.variogramFunction := congrArg OK3DArgs.variogramFunction hu
  have u5 : u.nlags = args.nlags := congrArg OK3DArgs.nlags hu
  have u6 : u.weight = args.weight := congrArg OK3DArgs.weight hu
  have u7 : u.aniso = args.aniso := congrArg OK3DArgs.aniso hu
  have c2 : s.variogramFunction = f := by rw [hse]
  have c3 : s.functionName = fname := by rw [hse]
  have c4 : s.pts = fun i => adjustPoint3 xc yc zc an (x i) (y i) (z i) := by
    rw [hse]
    unfold OK3D.pts
    funext i k
    fin_cases k <;> rfl
  have c5 : s.VALUES = v := by rw [hse]
  have c6 : s.params = ps := by rw [hse]
  have c7 : s.aniso = an := by rw [hse]
  have k1 : ∀ t : OK3D n, t.aniso = an → t.anisoSteps an = [] ∧ t.reAniso an = t := by
    intro t ht
    unfold OK3D.anisoSteps OK3D.reAniso
    rw [ht]
    simp
  unfold OK3D.updateSteps at ht
  dsimp only at ht
  rw [u1, u2, u4, u7, h2] at ht
  dsimp only at ht
  rw [h3] at ht
  dsimp only at ht
  obtain ⟨k2, k3⟩ := k1 { s with model := model, variogramModel := .name name, variogramFunction := f, functionName := fname } c7
  rw [k2, k3, h7] at ht
  dsimp only at ht
  have h6' : initializeVariogramModel env s.pts s.VALUES name vp f u.nlags u.weight "euclidean" = .ok (lags, ps) := by
    rw [c4, c5, u5, u6]; exact h8
  unfold OK3D.pts at ht h6'
  dsimp only at ht
  rw [h6'] at ht
  dsimp only at ht
  generalize findStatistics _ _ f ps _ _ = F at ht
  unfold OK3D.SameForExecute
  simp only [List.mem_append, List.mem_cons, List.not_mem_nil, or_false, List.append_nil] at ht
  rcases ht with (rfl | rfl | rfl) | (rfl | rfl) | rfl | (rfl | rfl) | ht
  · rfl
  · rfl
  · rfl
  · rfl
  · rfl
  · simp only [c2, c3]
  · simp only [c2, c3]
  · simp only [c2, c3, c6]
  · cases F with
    | error e => simp at ht
    | ok st =>
      simp only [List.mem_cons, List.not_mem_nil, or_false] at ht
      rw [ht]
      simp only [c2, c3, c6]

/-- Each iteration of the Python loops reads the attributes anew: the prediction at point `j` is that of a run in which every
iteration sees the state that iteration `j` sees, whatever the other iterations see. -/
theorem C74_iteration_3d {n : ℕ} (env : Env) {seen : ℕ → OK3D n} {ea : ExecArgs3} {j : ℕ} {r r' : ExecResult}
    (hr : OK3D.executeSeen env seen ea = .ok r) (hr' : OK3D.executeSeen env (allAs seen j) ea = .ok r') :
    r'.z[j]? = r.z[j]? ∧ r'.ss[j]? = r.ss[j]? := by
  have a0 : allAs seen j 0 = seen 0 := rfl
  have a1 : allAs seen j 1 = seen 1 := rfl
  have a2 : allAs seen j 2 = seen 2 := rfl
  have a3 : ∀ k, allAs seen j (k + 3) = seen (j + 3) := fun k => if_neg (by omega)
  have k1 : ∀ {a bd mask l l'}, OK3D.execLoopSeen seen a bd mask = .ok l → OK3D.execLoopSeen (allAs seen j) a bd mask = .ok l' →
      l'[j]? = l[j]? := by
    intro a bd mask l l' h h'
    unfold OK3D.execLoopSeen at h h'
    rw [a2] at h'
    obtain ⟨ai, hai, h⟩ := py_bind_eq_ok.1 h
    rw [hai] at h'
    simp only [py_ok_bind, a3] at h'
    exact mapM_zipIdx_get (fun k (p : (Fin n → ℝ) × Bool) => if p.2 then pure (0, 0) else (seen (k + 3)).loopBody ai p.1) h h'
  have k2 : ∀ {a ws mask l l'}, OK3D.execLoopMovingWindowSeen seen a ws mask = .ok l →
      OK3D.execLoopMovingWindowSeen (allAs seen j) a ws mask = .ok l' → l'[j]? = l[j]? := by
    intro a ws mask l l' h h'
    unfold OK3D.execLoopMovingWindowSeen at h h'
    simp only [a3] at h'
    exact mapM_zipIdx_get (fun k (p : Window n × Bool) => if p.2 then pure (0, 0) else (seen (k + 3)).windowBody a p.1) h h'
  have k3 : ∀ {a qs mask b k l l'}, OK3D.movingWindowSeen env seen a qs mask b k = .ok l →
      OK3D.movingWindowSeen env (allAs seen j) a qs mask b k = .ok l' → l'[j]? = l[j]? := by
    intro a qs mask b k l l' h h'
    unfold OK3D.movingWindowSeen at h h'
    rw [a2] at h'
    split at h
    · next hb => rw [if_pos hb] at h'; exact k2 h h'
    · next hb => rw [if_neg hb, h] at h'; rw [Except.ok.inj h']
  have k4 : ∀ {a qs mask b l l'}, OK3D.globalKrigeSeen seen a qs mask b = .ok l →
      OK3D.globalKrigeSeen (allAs seen j) a qs mask b = .ok l' → l'[j]? = l[j]? := by
    intro a qs mask b l l' h h'
    unfold OK3D.globalKrigeSeen at h h'
    rw [a2] at h'
    split at h
    · next hb => rw [if_pos hb] at h'; exact k1 h h'
    · next hb => rw [if_neg hb, h] at h'; rw [Except.ok.inj h']
  unfold OK3D.executeSeen at hr hr'
  rw [a0, a1] at hr'
  by_cases hst : ea.style ∉ ["grid", "masked", "points"]
  · rw [if_pos hst] at hr
    cases hr
  rw [if_neg hst] at hr hr'
  dsimp only at hr hr'
  have fin : ∀ {l l' : List (ℝ × ℝ)} {mask : List Bool}, l'[j]? = l[j]? →
      (applyMask ea.style mask (l'.map Prod.fst))[j]? = (applyMask ea.style mask (l.map Prod.fst))[j]? ∧
      (applyMask ea.style mask (l'.map Prod.snd))[j]? = (applyMask ea.style mask (l.map Prod.snd))[j]? := fun h =>
    ⟨applyMask_get (by simp [h]), applyMask_get (by simp [h])⟩
  cases hk : ea.nClosest with
  | none =>
    simp only [hk, py_pure, py_bind_eq_ok] at hr hr'
    obtain ⟨a, ha, ⟨pts, mask⟩, hq, qs, hqs, l, hl, hrr⟩ := hr
    obtain ⟨a', ha', ⟨pts', mask'⟩, hq', qs', hqs', l', hl', hrr'⟩ := hr'
    cases ha.symm.trans ha'
    cases hq.symm.trans hq'
    cases hqs.symm.trans hqs'
    cases hrr
    cases hrr'
    exact fin (k4 hl hl')
  | some k =>
    simp only [hk, py_pure, py_bind_eq_ok] at hr hr'
    obtain ⟨a, ha, ⟨pts, mask⟩, hq, qs, hqs, l, hl, hrr⟩ := hr
    obtain ⟨a', ha', ⟨pts', mask'⟩, hq', qs', hqs', l', hl', hrr'⟩ := hr'
    cases ha.symm.trans ha'
    cases hq.symm.trans hq'
    cases hqs.symm.trans hqs'
    cases hrr
    cases hrr'
    exact fin (k3 hl hl')

/-- An update that begins while the Python loop over the points is running, after the matrix has been inverted, does not touch
the points already done. -/
theorem C74_prefix_3d {n : ℕ} (env : Env) {seen : ℕ → OK3D n} {s : OK3D n} {ea : ExecArgs3} {r₀ : ExecResult}
    (hs : ∀ k < 3, seen k = s) (hb : ea.backend = "loop") (hn : ea.nClosest = none) (h₀ : s.execute env ea = .ok r₀)
    (hev : ∀ k, ∃ γ, (seen k).variogramFunction (seen k).params = .ok γ) :
    ∃ r, OK3D.executeSeen env seen ea = .ok r ∧
      ∀ j, seen (j + 3) = s → r.z[j]? = r₀.z[j]? ∧ r.ss[j]? = r₀.ss[j]? := by
  rw [← OK3D.executeSeen_same env (seen := fun _ => s) (fun _ => rfl) ea] at h₀
  have key : ∃ r, OK3D.executeSeen env seen ea = .ok r := by
    unfold OK3D.executeSeen at h₀ ⊢
    rw [hs 0 (by omega), hs 1 (by omega)]
    by_cases hst : ea.style ∉ ["grid", "masked", "points"]
    · rw [if_pos hst] at h₀
      cases h₀
    rw [if_neg hst] at h₀ ⊢
    dsimp only at h₀ ⊢
    simp only [hn, hb, py_pure, py_bind_eq_ok] at h₀ ⊢
    obtain ⟨a, ha, ⟨pts, mask⟩, hq, qs, hqs, l, hl, -⟩ := h₀
    unfold OK3D.globalKrigeSeen OK3D.execLoopSeen at hl
    rw [if_pos rfl] at hl
    obtain ⟨ai, hai, -⟩ := py_bind_eq_ok.1 hl
    have hl' : ∃ l', OK3D.globalKrigeSeen seen a qs mask "loop" = .ok l' := by
      unfold OK3D.globalKrigeSeen OK3D.execLoopSeen
      rw [if_pos rfl, hs 2 (by omega), hai]
      simp only [py_ok_bind]
      refine (py_mapM_ok_iff _ _).2 fun p _ => ?_
      obtain ⟨γ, hγ⟩ := hev (p.2 + 3)
      split
      · exact ⟨_, rfl⟩
      · unfold OK3D.loopBody
        rw [hγ]
        exact ⟨_, rfl⟩
    obtain ⟨l', hl'⟩ := hl'
    exact ⟨_, a, ha, (pts, mask), hq, qs, hqs, l', hl', rfl⟩
  obtain ⟨r, hr⟩ := key
  refine ⟨r, hr, fun j hj => ?_⟩
  have hc : allAs seen j = fun _ => s := by
    funext k
    unfold allAs
    split
    · exact hs k ‹_›
    · exact hj
  obtain ⟨h1, h2⟩ := C74_iteration_3d env hr (r' := r₀) (j := j) (by rw [hc]; exact h₀)
  exact ⟨h1.symm, h2.symm⟩

/-- Repeating the update of the settings in force, under every interleaving and for every query. -/
example (v : Fin 2 → ℝ) : ∃ s, OK3D.create stdEnv Demo.X Demo.O Demo.O v (Demo.args3 0 true false) = .ok s ∧
    ∀ seen : ℕ → OK3D 2, (∀ k, seen k ∈ OK3D.updateSteps stdEnv s { variogramModel := .name "linear", params := .list [1, 0] }) →
      ∀ ea, OK3D.executeSeen stdEnv seen ea = s.execute stdEnv ea := by
  obtain ⟨s, h, -⟩ := Demo.ok3 v 0 true false
  exact ⟨s, h, fun seen hs ea => C74_same_3d h rfl hs ea⟩

/-- The nugget is updated from 0 to 1 after the first of the points has been done. -/
example (v : Fin 2 → ℝ) (l : List (ℝ × ℝ × ℝ)) : ∃ (s s' : OK3D 2) (seen : ℕ → OK3D 2) (r₀ r : ExecResult),
    OK3D.create stdEnv Demo.X Demo.O Demo.O v (Demo.args3 0 true false) = .ok s ∧
    OK3D.update stdEnv s { variogramModel := .name "linear", params := .list [1, 1] } = (.ok (), s') ∧
    (∀ k, seen (k + 4) = s') ∧ s.execute stdEnv (Demo.pts3 l "loop") = .ok r₀ ∧
    OK3D.executeSeen stdEnv seen (Demo.pts3 l "loop") = .ok r ∧ r.ss[0]? = r₀.ss[0]? := by
  obtain ⟨s, h, hp, hv, -⟩ := Demo.ok3 v 0 true false
  obtain ⟨-, r₀, hr₀⟩ := Demo.ok3_run le_rfl h l (b := "loop") (by simp)
  obtain ⟨t, ht, hp', hv', -⟩ := Demo.ok3 v 1 true false
  have hk := OK3D.create_keeps h
  obtain ⟨s', hu⟩ := OK3D.update_accepts (u := { variogramModel := .name "linear", params := .list [1, 1] }) hk ht
  cases ht.symm.trans (OK3D.update_fresh hk hu)
  obtain ⟨r, hr, hj⟩ := C74_prefix_3d stdEnv (seen := fun k => if k < 4 then s else t) (s := s)
    (fun k hk => if_pos (by omega)) rfl rfl hr₀ (fun k => by
      split
      · exact ⟨_, by rw [hv, hp]; exact Demo.vario 0⟩
      · exact ⟨_, by rw [hv', hp']; exact Demo.vario 1⟩)
  exact ⟨s, t, _, r₀, r, h, hu, fun k => if_neg (by omega), hr₀, hr, (hj 0 rfl).2⟩

end
end PyKrige
