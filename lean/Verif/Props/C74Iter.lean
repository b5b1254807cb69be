import Verif.Props.C74

/-!
# C74: an update between the iterations of the Python loops

Each iteration sees the attributes anew, and nothing of the earlier iterations changes.
-/

namespace PyKrige
noncomputable section
open Matrix Spec

theorem mapM_zipIdx_get {α β : Type} (F : ℕ → α → Py β) {l : List α} {r r' : List β} {j : ℕ}
    (h : l.zipIdx.mapM (fun p => F p.2 p.1) = .ok r) (h' : l.zipIdx.mapM (fun p => F j p.1) = .ok r') :
    r'[j]? = r[j]? := by
  rw [py_mapM_eq_ok] at h h'
  have hl := h.length_eq
  have hl' := h'.length_eq
  rcases lt_or_ge j l.length with hj | hj
  · have g := (List.forall₂_iff_get.1 h).2 j (by simpa using hj) (by rw [← hl]; simpa using hj)
    have g' := (List.forall₂_iff_get.1 h').2 j (by simpa using hj) (by rw [← hl']; simpa using hj)
    simp only [List.get_eq_getElem, List.getElem_zipIdx, zero_add] at g g'
    rw [g] at g'
    rw [List.getElem?_eq_getElem (by rw [← hl']; simpa using hj), List.getElem?_eq_getElem (by rw [← hl]; simpa using hj)]
    exact congrArg some (Except.ok.inj g').symm
  · rw [List.getElem?_eq_none (by rw [← hl']; simpa using hj), List.getElem?_eq_none (by rw [← hl]; simpa using hj)]

/-- The states seen if every iteration sees what iteration `j` sees. -/
def Spec.allAs {α : Type} (seen : ℕ → α) (j : ℕ) (k : ℕ) : α := if k < 3 then seen k else seen (j + 3)

theorem applyMask_get {style : String} {mask : List Bool} {v v' : List ℝ} {j : ℕ} (h : v'[j]? = v[j]?) :
    (applyMask style mask v')[j]? = (applyMask style mask v)[j]? := by
  unfold applyMask
  split
  · simp [List.getElem?_zipWith, h]
  · simp [h]

/-- Each iteration of the Python loops reads the attributes anew: the prediction at point `j` is that of a run in which every
iteration sees the state that iteration `j` sees, whatever the other iterations see. -/
theorem C74_iteration {n : ℕ} (env : Env) {seen : ℕ → OK n} {ea : ExecArgs} {j : ℕ} {r r' : ExecResult}
    (hr : OK.executeSeen env seen ea = .ok r) (hr' : OK.executeSeen env (allAs seen j) ea = .ok r') :
    r'.z[j]? = r.z[j]? ∧ r'.ss[j]? = r.ss[j]? := by
  have a0 : allAs seen j 0 = seen 0 := rfl
  have a1 : allAs seen j 1 = seen 1 := rfl
  have a2 : allAs seen j 2 = seen 2 := rfl
  have a3 : ∀ k, allAs seen j (k + 3) = seen (j + 3) := fun k => if_neg (by omega)
  have k1 : ∀ {a bd mask l l'}, OK.execLoopSeen seen a bd mask = .ok l → OK.execLoopSeen (allAs seen j) a bd mask = .ok l' →
      l'[j]? = l[j]? := by
    intro a bd mask l l' h h'
    unfold OK.execLoopSeen at h h'
    rw [a2] at h'
    obtain ⟨ai, hai, h⟩ := py_bind_eq_ok.1 h
    rw [hai] at h'
    simp only [py_ok_bind, a3] at h'
    exact mapM_zipIdx_get (fun k (p : (Fin n → ℝ) × Bool) => if p.2 then pure (0, 0) else (seen (k + 3)).loopBody ai p.1) h h'
  have k2 : ∀ {a ws mask l l'}, OK.execLoopMovingWindowSeen seen a ws mask = .ok l →
      OK.execLoopMovingWindowSeen (allAs seen j) a ws mask = .ok l' → l'[j]? = l[j]? := by
    intro a ws mask l l' h h'
    unfold OK.execLoopMovingWindowSeen at h h'
    simp only [a3] at h'
    exact mapM_zipIdx_get (fun k (p : Window n × Bool) => if p.2 then pure (0, 0) else (seen (k + 3)).windowBody a p.1) h h'
  have k3 : ∀ {a qs mask b k l l'}, OK.movingWindowSeen env seen a qs mask b k = .ok l →
      OK.movingWindowSeen env (allAs seen j) a qs mask b k = .ok l' → l'[j]? = l[j]? := by
    intro a qs mask b k l l' h h'
    unfold OK.movingWindowSeen at h h'
    rw [a2] at h'
    split at h
    · next hb => rw [if_pos hb] at h'; exact k2 h h'
    · next hb => rw [if_neg hb, h] at h'; rw [Except.ok.inj h']
  have k4 : ∀ {a qs mask b l l'}, OK.globalKrigeSeen seen a qs mask b = .ok l →
      OK.globalKrigeSeen (allAs seen j) a qs mask b = .ok l' → l'[j]? = l[j]? := by
    intro a qs mask b l l' h h'
    unfold OK.globalKrigeSeen at h h'
    rw [a2] at h'
    split at h
    · next hb => rw [if_pos hb] at h'; exact k1 h h'
    · next hb => rw [if_neg hb, h] at h'; rw [Except.ok.inj h']
  unfold OK.executeSeen at hr hr'
  rw [a0, a1] at hr'
  by_cases hst : ea.style ∉ ["grid", "masked", "points"]
  · rw [if_pos hst] at hr
    cases hr
  rw [if_neg hst] at hr hr'
  dsimp only at hr hr'
  have fin : ∀ {l l' : List (ℝ × ℝ)} {mask : List Bool}, l'[j]? = l[j]? →
      (applyMask ea.style mask (l'.map Prod.fst))[j]? = (applyMask ea.style mask (l.map Prod.fst))[j]? ∧
      (applyMask ea.style mask (l'.map Prod.snd))[j]? = (applyMask ea.style mask (l.map Prod.snd))[j]? := fun h =>
    ⟨applyMask_get (by simp [h]), applyMask_get (by simp [h])⟩
  cases hk : ea.nClosest with
  | none =>
    simp only [hk, py_pure, py_bind_eq_ok] at hr hr'
    obtain ⟨a, ha, ⟨pts, mask⟩, hq, qs, hqs, l, hl, hrr⟩ := hr
    obtain ⟨a', ha', ⟨pts', mask'⟩, hq', qs', hqs', l', hl', hrr'⟩ := hr'
    cases ha.symm.trans ha'
    cases hq.symm.trans hq'
    cases hqs.symm.trans hqs'
    cases hrr
    cases hrr'
    exact fin (k4 hl hl')
  | some k =>
    simp only [hk] at hr hr'
    by_cases hk1 : k ≤ 1
    · rw [if_pos hk1] at hr
      cases hr
    rw [if_neg hk1] at hr hr'
    simp only [py_pure, py_bind_eq_ok] at hr hr'
    obtain ⟨a, ha, ⟨pts, mask⟩, hq, qs, hqs, l, hl, hrr⟩ := hr
    obtain ⟨a', ha', ⟨pts', mask'⟩, hq', qs', hqs', l', hl', hrr'⟩ := hr'
    cases ha.symm.trans ha'
    cases hq.symm.trans hq'
    cases hqs.symm.trans hqs'
    cases hrr
    cases hrr'
    exact fin (k3 hl hl')

/-- An update that begins while the Python loop over the points is running, after the matrix has been inverted, does not touch
the points already done: if the variogram can be evaluated in every state seen, `execute` returns, and at every point whose
iteration saw the object before the update the result is the one from before the update. -/
theorem C74_prefix {n : ℕ} (env : Env) {seen : ℕ → OK n} {s : OK n} {ea : ExecArgs} {r₀ : ExecResult}
    (hs : ∀ k < 3, seen k = s) (hb : ea.backend = "loop") (hn : ea.nClosest = none) (h₀ : s.execute env ea = .ok r₀)
    (hev : ∀ k, ∃ γ, (seen k).variogramFunction (seen k).params = .ok γ) :
    ∃ r, OK.executeSeen env seen ea = .ok r ∧
      ∀ j, seen (j + 3) = s → r.z[j]? = r₀.z[j]? ∧ r.ss[j]? = r₀.ss[j]? := by
  rw [← OK.executeSeen_same env (seen := fun _ => s) (fun _ => rfl) ea] at h₀
  have key : ∃ r, OK.executeSeen env seen ea = .ok r := by
    unfold OK.executeSeen at h₀ ⊢
    rw [hs 0 (by omega), hs 1 (by omega)]
    by_cases hst : ea.style ∉ ["grid", "masked", "points"]
    · rw [if_pos hst] at h₀
      cases h₀
    rw [if_neg hst] at h₀ ⊢
    have hbe : (if ea.backend = "C" ∧ ¬ env.cAvailable = true then "loop" else ea.backend) = "loop" := by rw [hb]; simp
    rw [hbe] at h₀ ⊢
    dsimp only at h₀ ⊢
    simp only [hn, py_pure, py_bind_eq_ok] at h₀ ⊢
    obtain ⟨a, ha, ⟨pts, mask⟩, hq, qs, hqs, l, hl, -⟩ := h₀
    unfold OK.globalKrigeSeen OK.execLoopSeen at hl
    rw [if_pos rfl] at hl
    obtain ⟨ai, hai, -⟩ := py_bind_eq_ok.1 hl
    have hl' : ∃ l', OK.globalKrigeSeen seen a qs mask "loop" = .ok l' := by
      unfold OK.globalKrigeSeen OK.execLoopSeen
      rw [if_pos rfl, hs 2 (by omega), hai]
      simp only [py_ok_bind]
      refine (py_mapM_ok_iff _ _).2 fun p _ => ?_
      obtain ⟨γ, hγ⟩ := hev (p.2 + 3)
      split
      · exact ⟨_, rfl⟩
      · unfold OK.loopBody
        rw [hγ]
        exact ⟨_, rfl⟩
    obtain ⟨l', hl'⟩ := hl'
    exact ⟨_, a, ha, (pts, mask), hq, qs, hqs, l', hl', rfl⟩
  obtain ⟨r, hr⟩ := key
  refine ⟨r, hr, fun j hj => ?_⟩
  have hc : allAs seen j = fun _ => s := by
    funext k
    unfold allAs
    split
    · exact hs k ‹_›
    · exact hj
  obtain ⟨h1, h2⟩ := C74_iteration env hr (r' := r₀) (j := j) (by rw [hc]; exact h₀)
  exact ⟨h1.symm, h2.symm⟩

/-- Data at `(0, 0)` and `(1, 0)`; the slope is updated from 1 to 1/10 after the first of the points has been done. -/
example (z : Fin 2 → ℝ) (l : List (ℝ × ℝ)) : ∃ (s s' : OK 2) (seen : ℕ → OK 2) (r₀ r : ExecResult),
    OK.create stdEnv Demo.X Demo.O z (Demo.args 0 true false) = .ok s ∧ OK.update stdEnv s Demo.slow = (.ok (), s') ∧
    (∀ k, seen (k + 4) = s') ∧ s.execute stdEnv (Demo.pts l "loop") = .ok r₀ ∧
    OK.executeSeen stdEnv seen (Demo.pts l "loop") = .ok r ∧ r.ss[0]? = r₀.ss[0]? := by
  obtain ⟨s, h, hp, hv, -⟩ := Demo.ok z 0 true false
  obtain ⟨-, r₀, hr₀⟩ := Demo.ok_run le_rfl h l (b := "loop") (by simp)
  obtain ⟨lags, st, hu⟩ := Demo.slow_update h
  obtain ⟨r, hr, hj⟩ := C74_prefix stdEnv (seen := fun k => if k < 4 then s else (OK.update stdEnv s Demo.slow).2) (s := s)
    (fun k hk => if_pos (by omega)) rfl rfl hr₀ (fun k => by
      split
      · exact ⟨_, by rw [hv, hp]; exact Demo.vario 0⟩
      · rw [hu]
        exact ⟨_, rfl⟩)
  exact ⟨s, _, _, r₀, r, h, hu, fun k => by rw [hu]; exact if_neg (by omega), hr₀, hr, (hj 0 rfl).2⟩

end
end PyKrige
