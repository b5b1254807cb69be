import Verif.Model.RaceUK3
import Verif.Props.C74Iter

/-!
# C74: `execute` while another thread updates the variogram, `UniversalKriging3D`

The same as for `OrdinaryKriging`.
-/

set_option linter.unusedSectionVars false

namespace PyKrige
noncomputable section
open Matrix Spec

/-- The state after the last step is the one `update_variogram_model` leaves behind, whether it succeeds or raises, and the
state before the first step is the one it starts from. -/
theorem C74_steps_uk3d {n : ℕ} (env : Env) (s : UK3D n) (u : Update3D) :
    (UK3D.updateSteps env s u).head? = some s ∧ (UK3D.updateSteps env s u).getLast? = some (UK3D.update env s u).2 := by
  constructor
  · rfl
  have hr : ∀ (t : UK3D n) an, (t :: t.anisoSteps an).getLast? = some (t.reAniso an) := by
    intro t an
    unfold UK3D.anisoSteps UK3D.reAniso
    split_ifs <;> simp
  unfold UK3D.updateSteps UK3D.update
  dsimp only
  generalize OK3D.resolveModel env u.variogramModel u.variogramFunction u.params u.aniso = R
  match R with
  | .error e => cases u.variogramModel <;> simp
  | .ok (name, model, fArg, pArg, an) =>
    dsimp only
    generalize chooseFunction name fArg = C
    match C with
    | .error e => simp
    | .ok (f, fname) =>
      dsimp only
      have h1 := hr { s with model := model, variogramModel := .name name, variogramFunction := f, functionName := fname } an
      generalize makeVariogramParameterList name pArg = M
      match M with
      | .error e =>
        dsimp only
        rw [List.append_nil]
        simp only [List.singleton_append]
        rw [List.getLast?_append, List.getLast?_append, h1]
        rfl
      | .ok vp =>
        dsimp only
        generalize initializeVariogramModel env _ _ name vp f u.nlags u.weight _ = I
        match I with
        | .error e =>
          dsimp only
          rw [List.append_nil]
          simp only [List.singleton_append]
          rw [List.getLast?_append, List.getLast?_append, h1]
          rfl
        | .ok (lags, ps) =>
          dsimp only
          generalize findStatistics _ _ f ps _ _ = F
          match F with
          | .error e => simp [List.getLast?_append, List.getLast?_cons]
          | .ok st => simp [List.getLast?_append, List.getLast?_cons]

/-- Every state of the list has the drift attributes, the data and the options of the first: it differs from it in the
attributes of `UK3D.Assigned` only. -/
theorem C74_assigned_uk3d {n : ℕ} (env : Env) (s : UK3D n) (u : Update3D) : ∀ t ∈ UK3D.updateSteps env s u, t = s.set t.assigned := by
  have hr : ∀ (t : UK3D n) an, t = s.set t.assigned → (∀ t' ∈ t.anisoSteps an, t' = s.set t'.assigned) ∧ t.reAniso an = s.set (t.reAniso an).assigned := by
    intro t an ht
    rw [ht]
    unfold UK3D.anisoSteps UK3D.reAniso
    split_ifs
    · refine ⟨fun t' ht' => ?_, rfl⟩
      simp only [List.mem_cons, List.not_mem_nil, or_false] at ht'
      rcases ht' with rfl | rfl | rfl | rfl | rfl | rfl | rfl | rfl <;> rfl
    · exact ⟨by simp, rfl⟩
  intro t ht
  unfold UK3D.updateSteps at ht
  dsimp only at ht
  generalize OK3D.resolveModel env u.variogramModel u.variogramFunction u.params u.aniso = R at ht
  rw [List.mem_append] at ht
  rcases ht with ht | ht
  · simp only [List.mem_cons, List.not_mem_nil, or_false] at ht
    rcases ht with rfl | rfl | rfl <;> rfl
  match R, ht with
  | .error e, ht =>
    dsimp only at ht
    split at ht
    · simp only [List.mem_cons, List.not_mem_nil, or_false] at ht
      rw [ht]; rfl
    · simp at ht
  | .ok (name, model, fArg, pArg, an), ht =>
    dsimp only at ht
    rw [List.mem_append] at ht
    rcases ht with ht | ht
    · simp only [List.mem_cons, List.not_mem_nil, or_false] at ht
      rcases ht with rfl | rfl <;> rfl
    generalize chooseFunction name fArg = C at ht
    match C, ht with
    | .error e, ht => simp at ht
    | .ok (f, fname), ht =>
      dsimp only at ht
      obtain ⟨k1, k2⟩ := hr { s with model := model, variogramModel := .name name, variogramFunction := f, functionName := fname } an rfl
      generalize hs6 : UK3D.reAniso _ an = s6 at ht k2
      rw [List.mem_append, List.mem_append] at ht
      rcases ht with (ht | ht) | ht
      · simp only [List.mem_cons, List.not_mem_nil, or_false] at ht
        rw [ht]; rfl
      · exact k1 t ht
      generalize makeVariogramParameterList name pArg = M at ht
      match M, ht with
      | .error e, ht => simp at ht
      | .ok vp, ht =>
        dsimp only at ht
        generalize initializeVariogramModel env _ _ name vp f u.nlags u.weight _ = I at ht
        match I, ht with
        | .error e, ht => simp at ht
        | .ok (lags, ps), ht =>
          dsimp only at ht
          generalize findStatistics _ _ f ps _ _ = F at ht
          rw [List.mem_append] at ht
          rcases ht with ht | ht
          · simp only [List.mem_cons, List.not_mem_nil, or_false] at ht
            rcases ht with rfl | rfl <;> (rw [k2]; rfl)
          match F, ht with
          | .error e, ht => simp at ht
          | .ok st, ht =>
            simp only [List.mem_cons, List.not_mem_nil, or_false] at ht
            rw [ht, k2]; rfl

/-- Attributes that `execute` cannot tell from those of the object: they agree in everything but the name of the model, the
GSTools object, the lags and the statistics. -/
def UK3D.SameForExecute {n : ℕ} (v : UK3D.Assigned n) (s : UK3D n) : Prop :=
  v = { s.assigned with variogramModel := v.variogramModel, model := v.model, lags := v.lags, stats := v.stats }

theorem UK3D.executeSeen_same {n : ℕ} {seen : ℕ → UK3D.Assigned n} {s : UK3D n} (h : ∀ k, UK3D.SameForExecute (seen k) s) (ea : UK3DExecArgs) :
    s.executeSeen seen ea = s.execute ea := by
  obtain ⟨A, B, L, S, rfl⟩ : ∃ (A : ℕ → ModelArg) (B : ℕ → Option GsModel) (L : ℕ → List (ℝ × ℝ)) (S : ℕ → Option Stats), seen = fun k => { s.assigned with variogramModel := A k, model := B k, lags := L k, stats := S k } :=
    ⟨fun k => (seen k).variogramModel, fun k => (seen k).model, fun k => (seen k).lags, fun k => (seen k).stats, funext h⟩
  have e10 : s.execLoopSeen (fun k => { s.assigned with variogramModel := A k, model := B k, lags := L k, stats := S k }) = s.execLoop := by
    funext a qs mask spec
    unfold UK3D.execLoopSeen UK3D.execLoop
    congr 1
    funext ai
    congr 1
    exact mapM_zipIdx (fun p : UK3Query n × Bool => if p.2 then pure ((0, 0), false) else s.loopBody ai spec p.1) _ 0
  unfold UK3D.executeSeen UK3D.execute UK3D.executeWSeen UK3D.executeW
  rw [e10]
  rfl

/-- If every read of `execute` sees the object as it was before the update, or every read sees it as the update left it,
`execute` returns what it returns before, or after, the update. -/
theorem C74_serial_uk3d {n : ℕ} (env : Env) (s : UK3D n) (u : Update3D) (ea : UK3DExecArgs) {seen : ℕ → UK3D.Assigned n} :
    ((∀ k, s.set (seen k) = s) → s.executeSeen seen ea = s.execute ea) ∧
    ((∀ k, s.set (seen k) = (UK3D.update env s u).2) → s.executeSeen seen ea = (UK3D.update env s u).2.execute ea) := by
  constructor
  · intro h
    refine UK3D.executeSeen_same (fun k => ?_) ea
    have : seen k = (s.set (seen k)).assigned := rfl
    rw [this, h k]
    rfl
  · intro h
    have e : seen = fun _ => (UK3D.update env s u).2.assigned := by
      funext k
      rw [← h k]; rfl
    have e2 := h 0
    generalize (UK3D.update env s u).2 = t at e e2
    subst e
    dsimp only at e2
    have := UK3D.executeSeen_same (s := t) (seen := fun _ => t.assigned) (fun _ => rfl) ea
    rw [← this, ← e2]
    rfl

/-- Under every interleaving, an update that repeats the settings the object was constructed with is not noticed: whatever
states between the assignments of the update `execute` sees at its moments of reading, it returns the same. -/
theorem C74_same_uk3d {n : ℕ} {env : Env} {x y z w : Fin n → ℝ} {args : UK3DArgs} {s : UK3D n} (h : UK3D.create env x y z w args = .ok s)
    {u : Update3D} (hu : args.withUpdate u = args) {seen : ℕ → UK3D.Assigned n} (hs : ∀ k, s.set (seen k) ∈ UK3D.updateSteps env s u)
    (ea : UK3DExecArgs) : s.executeSeen seen ea = s.execute ea := by
  refine UK3D.executeSeen_same (fun k => ?_) ea
  have ht := hs k
  generalize seen k = v at ht
  clear hs k seen
  obtain ⟨hp, exact, name, model, fArg, pArg, an, f, fname, xc, yc, zc, vp, lags, ps, stats, spec, func,
    h1, h2, h3, h4, h5, h5', h6, h7, h8, h9, h10, hse⟩ := UK3D.create_ok h
  have u1 : u.variogramModel = args.variogramModel := congrArg UK3DArgs.variogramModel hu
  have u2 : u.params = args.params := congrArg UK3DArgs.params hu
  have u4 : u.variogramFunction = args.variogramFunction := congrArg UK3DArgs.variogramFunction hu
  have u5 : u.nlags = args.nlags := congrArg UK3DArgs.nlags hu
  have u6 : u.weight = args.weight := congrArg UK3DArgs.weight hu
  have u7 : u.aniso = args.aniso := congrArg UK3DArgs.aniso hu
  have c2 : s.variogramFunction = f := by rw [hse]
  have c3 : s.functionName = fname := by rw [hse]
  have c4 : s.pts = fun i => adjustPoint3 xc yc zc an (x i) (y i) (z i) := by
    rw [hse]
    unfold UK3D.pts
    funext i k
    fin_cases k <;> rfl
  have c5 : s.VALUES = w := by rw [hse]
  have c6 : s.params = ps := by rw [hse]
  have c7 : s.aniso = an := by rw [hse]
  have k1 : ∀ t : UK3D n, t.aniso = an → t.anisoSteps an = [] ∧ t.reAniso an = t := by
    intro t ht
    unfold UK3D.anisoSteps UK3D.reAniso
    rw [ht]
    simp
  unfold UK3D.updateSteps at ht
  dsimp only at ht
  rw [u1, u2, u4, u7, h2] at ht
  dsimp only at ht
  rw [h3] at ht
  dsimp only at ht
  obtain ⟨k2, k3⟩ := k1 { s with model := model, variogramModel := .name name, variogramFunction := f, functionName := fname } c7
  rw [k2, k3, h6] at ht
  dsimp only at ht
  have h6' : initializeVariogramModel env s.pts s.VALUES name vp f u.nlags u.weight "euclidean" = .ok (lags, ps) := by
    rw [c4, c5, u5, u6]; exact h7
  unfold UK3D.pts at ht h6'
  dsimp only at ht
  rw [h6'] at ht
  dsimp only at ht
  generalize findStatistics _ _ f ps _ _ = F at ht
  unfold UK3D.SameForExecute
  have key : ∀ t : UK3D n, s.set v = t → v = t.assigned := fun t h => by rw [← h]; rfl
  simp only [List.mem_append, List.mem_cons, List.not_mem_nil, or_false, List.append_nil] at ht
  rcases ht with (ht | ht | ht) | (ht | ht) | ht | (ht | ht) | ht
  · rw [key _ ht]
  · rw [key _ ht]; rfl
  · rw [key _ ht]; rfl
  · rw [key _ ht]; rfl
  · rw [key _ ht]; rfl
  · rw [key _ ht]; simp only [UK3D.assigned, c2, c3]
  · rw [key _ ht]; simp only [UK3D.assigned, c2, c3]
  · rw [key _ ht]; simp only [UK3D.assigned, c2, c3, c6]
  · cases F with
    | error e => simp at ht
    | ok st =>
      simp only [List.mem_cons, List.not_mem_nil, or_false] at ht
      rw [key _ ht]; simp only [UK3D.assigned, c2, c3, c6]

/-- Each iteration of the loop reads the attributes anew: the prediction at point `j` is that of a run in which every
iteration sees the state that iteration `j` sees, whatever the other iterations see. -/
theorem C74_iteration_uk3d {n : ℕ} {s : UK3D n} {seen : ℕ → UK3D.Assigned n} {ea : UK3DExecArgs} {j : ℕ} {r r' : ExecResult}
    (hr : s.executeSeen seen ea = .ok r) (hr' : s.executeSeen (allAs seen j) ea = .ok r') :
    r'.z[j]? = r.z[j]? ∧ r'.ss[j]? = r.ss[j]? := by
  have a0 : allAs seen j 0 = seen 0 := rfl
  have a1 : s.queriesSeen (allAs seen j) = s.queriesSeen seen := rfl
  have a2 : allAs seen j 2 = seen 2 := rfl
  have a3 : ∀ k, allAs seen j (k + 3) = seen (j + 3) := fun k => if_neg (by omega)
  have k1 : ∀ {a qs mask spec l l'}, s.execLoopSeen seen a qs mask spec = .ok l → s.execLoopSeen (allAs seen j) a qs mask spec = .ok l' →
      l'.1[j]? = l.1[j]? := by
    intro a qs mask spec l l' h h'
    unfold UK3D.execLoopSeen at h h'
    simp only [py_pure, py_bind_eq_ok] at h h'
    obtain ⟨ai, hai, m, hm, h⟩ := h
    obtain ⟨ai', hai', m', hm', h'⟩ := h'
    cases hai.symm.trans hai'
    have hf : (fun p : (UK3Query n × Bool) × ℕ => if p.1.2 then pure ((0, 0), false) else (s.set (allAs seen j (p.2 + 3))).loopBody ai spec p.1.1) =
        (fun p : (UK3Query n × Bool) × ℕ => if p.1.2 then pure ((0, 0), false) else (s.set (seen (j + 3))).loopBody ai spec p.1.1) := by
      funext p
      rw [a3]
    have hm' := (congrArg (fun g => List.mapM g (qs.zip mask).zipIdx) hf).symm.trans hm'
    have := mapM_zipIdx_get (fun k (p : UK3Query n × Bool) => if p.2 then pure ((0, 0), false) else (s.set (seen (k + 3))).loopBody ai spec p.1) hm hm'
    cases h
    cases h'
    simp [this]
  unfold UK3D.executeSeen at hr hr'
  rw [py_map_eq_ok] at hr hr'
  obtain ⟨⟨r₁, w⟩, hr, rfl⟩ := hr
  obtain ⟨⟨r₂, w'⟩, hr', rfl⟩ := hr'
  unfold UK3D.executeWSeen at hr hr'
  rw [a0, a1, a2] at hr'
  by_cases hst : ea.toExec.style ∉ ["grid", "masked", "points"]
  · rw [if_pos hst] at hr
    cases hr
  rw [if_neg hst] at hr hr'
  dsimp only at hr hr'
  simp only [py_bind_eq_ok] at hr hr'
  obtain ⟨⟨a, wa⟩, ha, ⟨pts, mask⟩, hq, sp, hsp, hr⟩ := hr
  obtain ⟨⟨a', wa'⟩, ha', ⟨pts', mask'⟩, hq', sp', hsp', hr'⟩ := hr'
  cases ha.symm.trans ha'
  cases hq.symm.trans hq'
  cases hsp.symm.trans hsp'
  by_cases hi : (ea.toExec.xpoints.isInt && ea.toExec.ypoints.isInt && ea.toExec.zpoints.isInt) = true
  · rw [if_pos hi] at hr
    cases hr
  rw [if_neg hi] at hr hr'
  have fin : ∀ {l l' : List (ℝ × ℝ)} {mask : List Bool}, l'[j]? = l[j]? →
      (applyMask ea.toExec.style mask (l'.map Prod.fst))[j]? = (applyMask ea.toExec.style mask (l.map Prod.fst))[j]? ∧
      (applyMask ea.toExec.style mask (l'.map Prod.snd))[j]? = (applyMask ea.toExec.style mask (l.map Prod.snd))[j]? := fun h =>
    ⟨applyMask_get (by simp [h]), applyMask_get (by simp [h])⟩
  by_cases hv : ea.toExec.backend = "vectorized"
  · rw [if_pos hv] at hr hr'
    cases hr.symm.trans hr'
    exact ⟨rfl, rfl⟩
  rw [if_neg hv] at hr hr'
  by_cases hl : ea.toExec.backend = "loop"
  · rw [if_pos hl] at hr hr'
    simp only [py_pure, py_bind_eq_ok] at hr hr'
    obtain ⟨⟨l, wb⟩, hl, hr⟩ := hr
    obtain ⟨⟨l', wb'⟩, hl', hr'⟩ := hr'
    cases hr
    cases hr'
    exact fin (k1 hl hl')
  · rw [if_neg hl] at hr
    cases hr

/-- Whether the drift terms of a point can be computed does not depend on the right-hand side they are written into. -/
theorem UK3D.pushRhsLoop_any {n N : ℕ} (s : UK3D n) {spec : List (List ℝ)} {p : ℝ × ℝ × ℝ} {j : ℕ} {b b' : Fin N → ℝ} {r : (Fin N → ℝ) × ℕ}
    (h : s.pushRhsLoop spec (s.mkQuery p j) (b, n) = .ok r) :
    ∃ r', s.pushRhsLoop spec (s.mkQuery p j) (b', n) = .ok r' := by
  rw [UK3D.pushRhsLoop_eq] at h ⊢
  simp only [py_pure, py_bind_eq_ok] at h ⊢
  obtain ⟨sv, hsv, -⟩ := h
  exact ⟨_, sv, hsv, rfl⟩

/-- An update that begins while the loop over the points is running, after the matrix has been inverted, does not touch the
points already done: `execute` returns (if the variogram can be evaluated in each state seen), and at every point whose
iteration saw the object before the update the result is the one from before the update. -/
theorem C74_prefix_uk3d {n : ℕ} {s : UK3D n} {seen : ℕ → UK3D.Assigned n} {ea : UK3DExecArgs} {r₀ : ExecResult}
    (hs : ∀ k < 3, s.set (seen k) = s) (hb : ea.toExec.backend = "loop") (h₀ : s.execute ea = .ok r₀)
    (hev : ∀ k, ∃ γ, (seen k).variogramFunction (seen k).params = .ok γ) :
    ∃ r, s.executeSeen seen ea = .ok r ∧
      ∀ j, s.set (seen (j + 3)) = s → r.z[j]? = r₀.z[j]? ∧ r.ss[j]? = r₀.ss[j]? := by
  have key : ∃ r, s.executeSeen seen ea = .ok r := by
    have e1 : s.queriesSeen seen = s.queries := by
      unfold UK3D.queriesSeen UK3D.queries
      rw [hs 1 (by omega), hs 2 (by omega)]
    have e0 : seen 0 = s.assigned := by rw [← hs 0 (by omega)]; rfl
    have h₀' := h₀
    unfold UK3D.execute at h₀'
    unfold UK3D.executeSeen
    rw [py_map_eq_ok] at h₀'
    obtain ⟨⟨r₁, w⟩, h₀', -⟩ := h₀'
    unfold UK3D.executeW at h₀'
    unfold UK3D.executeWSeen
    have hb' : ea.toExec.backend = "loop" := hb
    rw [e1, e0]
    by_cases hst : ea.toExec.style ∉ ["grid", "masked", "points"]
    · rw [if_pos hst] at h₀'
      cases h₀'
    rw [if_neg hst] at h₀' ⊢
    dsimp only at h₀' ⊢
    simp only [py_bind_eq_ok] at h₀'
    obtain ⟨⟨a, wa⟩, ha, ⟨pts, mask⟩, hq, sp, hsp, h₀'⟩ := h₀'
    by_cases hi : (ea.toExec.xpoints.isInt && ea.toExec.ypoints.isInt && ea.toExec.zpoints.isInt) = true
    · rw [if_pos hi] at h₀'
      cases h₀'
    rw [if_neg hi, if_neg (by rw [hb']; decide), if_pos hb'] at h₀'
    simp only [py_pure, py_bind_eq_ok] at h₀'
    obtain ⟨⟨l, wb⟩, hl, -⟩ := h₀'
    have hl' : ∃ l', s.execLoopSeen seen a (s.queries pts) mask sp = .ok l' := by
      unfold UK3D.execLoop at hl
      unfold UK3D.execLoopSeen
      simp only [py_pure, py_bind_eq_ok] at hl
      obtain ⟨ai, hai, m, hm, -⟩ := hl
      rw [hai]
      simp only [py_ok_bind]
      have hm := (py_mapM_ok_iff _ _).1 ⟨m, hm⟩
      obtain ⟨l', hl'⟩ := (py_mapM_ok_iff (fun p : (UK3Query n × Bool) × ℕ => if p.1.2 then pure ((0, 0), false) else
        (s.set (seen (p.2 + 3))).loopBody ai sp p.1.1) ((s.queries pts).zip mask).zipIdx).2 (fun p hp => by
        obtain ⟨⟨q, c⟩, i⟩ := p
        have hp := List.fst_mem_of_mem_zipIdx hp
        cases c with
        | true => exact ⟨_, if_pos rfl⟩
        | false =>
          obtain ⟨v, hv⟩ := hm (q, false) hp
          have hv : s.loopBody ai sp q = .ok v := hv
          obtain ⟨p, j, rfl⟩ : ∃ p j, q = (s.mkQuery p j) := by
            have := (List.of_mem_zip hp).1
            rw [UK3D.queries_eq] at this
            obtain ⟨p, -, rfl⟩ := List.mem_map.1 this
            exact ⟨p.1, p.2, rfl⟩
          unfold UK3D.loopBody at hv
          simp only [py_pure, py_bind_eq_ok] at hv
          obtain ⟨γ, hγ, st, hst, -⟩ := hv
          obtain ⟨γ', hγ'⟩ := hev (i + 3)
          simp only [Bool.false_eq_true, if_false]
          unfold UK3D.loopBody
          have e : (s.set (seen (i + 3))).variogramFunction (s.set (seen (i + 3))).params = .ok γ' := hγ'
          rw [e]
          simp only [py_ok_bind]
          obtain ⟨st', hst'⟩ := s.pushRhsLoop_any (b' := _) hst
          refine ⟨_, py_bind_eq_ok.2 ⟨st', hst', rfl⟩⟩)
      rw [hl']
      exact ⟨_, rfl⟩
    obtain ⟨⟨l', wb'⟩, hl'⟩ := hl'
    have ha' : (s.set s.assigned).getKrigingMatrix = .ok (a, wa) := ha
    simp only [ha', hq, hsp, py_ok_bind]
    rw [if_neg hi, if_neg (by rw [hb']; decide), if_pos hb', hl']
    exact ⟨_, rfl⟩
  obtain ⟨r, hr⟩ := key
  refine ⟨r, hr, fun j hj => ?_⟩
  have hc : s.executeSeen (allAs seen j) ea = .ok r₀ := by
    rw [← h₀]
    refine (C74_serial_uk3d stdEnv s { variogramModel := s.variogramModel } ea).1 fun k => ?_
    unfold allAs
    split
    · exact hs k ‹_›
    · exact hj
  obtain ⟨h1, h2⟩ := C74_iteration_uk3d hr hc
  exact ⟨h1.symm, h2.symm⟩

/-- Repeating the update of the settings in force, under every interleaving and for every query. -/
example (v : Fin 2 → ℝ) : ∃ s, UK3D.create stdEnv Demo.X Demo.O Demo.O v (Demo.uargs3 0 true false) = .ok s ∧
    ∀ seen : ℕ → UK3D.Assigned 2, (∀ k, s.set (seen k) ∈ UK3D.updateSteps stdEnv s { variogramModel := .name "linear", params := .list [1, 0] }) →
      ∀ ea, s.executeSeen seen ea = s.execute ea := by
  obtain ⟨s, h, -⟩ := Demo.uk3 v 0 true false
  exact ⟨s, h, fun seen hs ea => C74_same_uk3d h rfl hs ea⟩

/-- The nugget is updated from 0 to 1 after the first of the points has been done. -/
example (v : Fin 2 → ℝ) (l : List (ℝ × ℝ × ℝ)) : ∃ (s s' : UK3D 2) (seen : ℕ → UK3D.Assigned 2) (r₀ r : ExecResult),
    UK3D.create stdEnv Demo.X Demo.O Demo.O v (Demo.uargs3 0 true false) = .ok s ∧
    UK3D.update stdEnv s { variogramModel := .name "linear", params := .list [1, 1] } = (.ok (), s') ∧
    (∀ k, s.set (seen (k + 4)) = s') ∧ s.execute { toExec := Demo.pts3 l "loop" } = .ok r₀ ∧
    s.executeSeen seen { toExec := Demo.pts3 l "loop" } = .ok r ∧ r.ss[0]? = r₀.ss[0]? := by
  obtain ⟨s, h, hp, hv, -⟩ := Demo.uk3 v 0 true false
  obtain ⟨r₀, hr₀⟩ := Demo.uk3_run h l (b := "loop") (by simp)
  obtain ⟨t, ht, hp', hv', -⟩ := Demo.uk3 v 1 true false
  have hk := UK3D.create_keeps h
  obtain ⟨s', hu⟩ := UK3D.update_accepts (u := { variogramModel := .name "linear", params := .list [1, 1] }) hk ht
  have hf := UK3D.update_fresh hk hu
  have hts := Except.ok.inj (ht.symm.trans hf)
  rw [hts] at hp' hv'
  obtain ⟨r, hr, hj⟩ := C74_prefix_uk3d (seen := fun k => if k < 4 then s.assigned else s'.assigned) (s := s)
    (fun k hk => by rw [if_pos (by omega)]; rfl) rfl hr₀ (fun k => by
      split
      · exact ⟨_, by rw [show s.assigned.variogramFunction = _ from hv, show s.assigned.params = _ from hp]; exact Demo.vario 0⟩
      · exact ⟨_, by rw [show s'.assigned.variogramFunction = _ from hv', show s'.assigned.params = _ from hp']; exact Demo.vario 1⟩)
  refine ⟨s, s', _, r₀, r, h, hu, fun k => ?_, hr₀, hr, (hj 0 rfl).2⟩
  rw [if_neg (by omega)]
  have := C74_assigned_uk3d stdEnv s _ s' (List.mem_of_getLast? ((C74_steps_uk3d stdEnv s _).2.trans (by rw [hu])))
  exact this.symm

end
end PyKrige
