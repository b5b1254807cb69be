import Verif.Props.C83Update
import Verif.Lemmas.Pseudo

/-!
# C84: settings of the fit and of the diagnostics do not influence predictions

Two objects made from the same data that differ only in `pseudo_inv_type`, `enable_statistics` and, if the parameters of the
variogram are given, also in `nlags` and `weight`: whatever is done with them later, they answer alike.
-/

namespace PyKrige
noncomputable section
open Spec

theorem invertPython_type {N : ℕ} {a : Matrix (Fin N) (Fin N) ℝ} (ha : a.transpose = a) (pseudo : Bool) {p q : String}
    (hp : p ∈ ["pinv", "pinvh"]) (hq : q ∈ ["pinv", "pinvh"]) : invertPython pseudo p a = invertPython pseudo q a := by
  simp only [List.mem_cons, List.not_mem_nil, or_false] at hp hq
  unfold invertPython
  rcases hp with rfl | rfl <;> rcases hq with rfl | rfl <;> simp [P_INV, scipyPinvh_of_symm ha]

theorem invertC_type {N : ℕ} {a : Matrix (Fin N) (Fin N) ℝ} (ha : a.transpose = a) (pseudo : Bool) {p q : String}
    (hp : p ∈ ["pinv", "pinvh"]) (hq : q ∈ ["pinv", "pinvh"]) : invertC pseudo p a = invertC pseudo q a := by
  simp only [List.mem_cons, List.not_mem_nil, or_false] at hp hq
  unfold invertC
  rcases hp with rfl | rfl <;> rcases hq with rfl | rfl <;> simp [scipyPinvh_of_symm ha]

theorem OK.execute_settings {n : ℕ} (env : Env) (s : OK n) (ea : ExecArgs) (l : List (ℝ × ℝ)) (st : Option Stats) (p : String)
    (hs : s.pseudoInvType ∈ ["pinv", "pinvh"]) (hp : p ∈ ["pinv", "pinvh"]) :
    OK.execute env { s with lags := l, stats := st, pseudoInvType := p } ea = OK.execute env s ea := by
  have h1 : ({ s with lags := l, stats := st, pseudoInvType := p } : OK n).getKrigingMatrix = s.getKrigingMatrix := rfl
  have h2 : ∀ pts, ({ s with lags := l, stats := st, pseudoInvType := p } : OK n).adjustQuery ea pts = s.adjustQuery ea pts := fun _ => rfl
  have h3 : ∀ a qs mask b k, ({ s with lags := l, stats := st, pseudoInvType := p } : OK n).movingWindow env a qs mask b k = s.movingWindow env a qs mask b k :=
    fun _ _ _ _ _ => rfl
  have h4 : ∀ γ qs mask b, ({ s with lags := l, stats := st, pseudoInvType := p } : OK n).globalKrige (coreKrigingMatrix n γ s.dataDist) qs mask b =
      s.globalKrige (coreKrigingMatrix n γ s.dataDist) qs mask b := by
    intro γ qs mask b
    have hi := invertPython_type (coreKrigingMatrix_symm γ s.dataDist_comm) s.pseudoInv hp hs
    have hc := invertC_type (coreKrigingMatrix_symm γ s.dataDist_comm) s.pseudoInv hp hs
    simp only [OK.globalKrige, OK.execVector, OK.execLoop, OK.cExecLoop, hi, hc]
    rfl
  unfold OK.execute
  rw [h1, OK.getKrigingMatrix_eq]
  cases s.variogramFunction s.params with
  | error e => rfl
  | ok γ => simp only [h2, h3, h4, py_ok_bind, py_pure]

theorem OK.reAniso_settings {n : ℕ} (s : OK n) (l : List (ℝ × ℝ)) (st : Option Stats) (p : String) (sc an : ℝ) :
    ({ s with lags := l, stats := st, pseudoInvType := p } : OK n).reAniso sc an = { s.reAniso sc an with lags := l, stats := st, pseudoInvType := p } := by
  unfold OK.reAniso
  dsimp only
  repeat' split
  all_goals rfl

theorem OK.update_settings {n : ℕ} (env : Env) (s : OK n) (u : OKUpdate) (l : List (ℝ × ℝ)) (st : Option Stats) (p : String) :
    (s.update env u).2.pseudoInvType = s.pseudoInvType ∧
    ∃ l' st', OK.update env { s with lags := l, stats := st, pseudoInvType := p } u = ((s.update env u).1, { (s.update env u).2 with lags := l', stats := st', pseudoInvType := p }) := by
  have hre : ∀ vm m f fn sc an, OK.reAniso { s with lags := l, stats := st, pseudoInvType := p, variogramModel := vm, model := m, variogramFunction := f, functionName := fn } sc an =
      { OK.reAniso { s with variogramModel := vm, model := m, variogramFunction := f, functionName := fn } sc an with lags := l, stats := st, pseudoInvType := p } :=
    fun vm m f fn sc an => OK.reAniso_settings { s with variogramModel := vm, model := m, variogramFunction := f, functionName := fn } l st p sc an
  have hty : ∀ (t : OK n) sc an, (t.reAniso sc an).pseudoInvType = t.pseudoInvType := by
    intro t sc an
    unfold OK.reAniso
    dsimp only
    repeat' split
    all_goals rfl
  unfold OK.update
  dsimp only
  cases OK.resolveModel env s.coordinatesType u.variogramModel u.variogramFunction u.params u.anisotropyScaling u.anisotropyAngle with
  | error e => cases u.variogramModel <;> exact ⟨rfl, l, st, rfl⟩
  | ok r =>
  obtain ⟨name, m, fArg, pArg, sc, an⟩ := r
  dsimp only
  cases chooseFunction name fArg with
  | error e => exact ⟨rfl, l, st, rfl⟩
  | ok q =>
  obtain ⟨f, fn⟩ := q
  dsimp only
  rw [hre]
  generalize hR : OK.reAniso _ sc an = R
  have hRt : R.pseudoInvType = s.pseudoInvType := by rw [← hR, hty]
  cases makeVariogramParameterList name pArg with
  | error e => exact ⟨hRt, l, st, rfl⟩
  | ok vp =>
  dsimp only
  have hpt : (OK.pts { R with lags := l, stats := st, pseudoInvType := p }) = R.pts := rfl
  rw [hpt]
  cases initializeVariogramModel env R.pts R.Z name vp f u.nlags u.weight R.coordinatesType with
  | error e => exact ⟨hRt, l, st, rfl⟩
  | ok r =>
  obtain ⟨lags, ps⟩ := r
  dsimp only
  generalize hF : findStatistics _ _ f ps _ _ = F
  generalize hF' : findStatistics _ _ f ps _ _ = F'
  have hFF : F = F' := by rw [← hF, ← hF']; rfl
  subst hFF
  cases F with
  | error e => exact ⟨hRt, lags, st, rfl⟩
  | ok st' => exact ⟨hRt, lags, some st', rfl⟩

/-- Alike but for the recorded lags and statistics and the routine for pseudo-inverses. -/
def OK.Alike {n : ℕ} (s t : OK n) : Prop :=
  s.pseudoInvType ∈ ["pinv", "pinvh"] ∧ t.pseudoInvType ∈ ["pinv", "pinvh"] ∧
    t = { s with lags := t.lags, stats := t.stats, pseudoInvType := t.pseudoInvType }

theorem OK.Alike.run {n : ℕ} (env : Env) {s t : OK n} (h : s.Alike t) (calls : List (Call OKUpdate ExecArgs)) :
    (s.run env calls).1 = (t.run env calls).1 := by
  refine runCalls_sim OK.Alike ?_ ?_ calls s t h
  · rintro s t u ⟨h1, h2, h3⟩
    obtain ⟨h4, l, st, h5⟩ := OK.update_settings env s u t.lags t.stats t.pseudoInvType
    rw [← h3] at h5
    rw [h5]
    exact ⟨rfl, h4 ▸ h1, h2, rfl⟩
  · rintro s t ea ⟨h1, h2, h3⟩
    rw [h3]
    exact (OK.execute_settings env s ea t.lags t.stats t.pseudoInvType h1 h2).symm

/-- Two objects that differ only in `pseudo_inv_type`, `enable_statistics` and, with given parameters or a GSTools model, in `nlags` and
`weight` answer every later sequence of calls alike. -/
theorem C84_settings_ok {n : ℕ} {env : Env} {x y z : Fin n → ℝ} {args : OKArgs} {nlags : ℕ} {weight stat : Bool} {type : String}
    {s t : OK n} (hs : OK.create env x y z args = .ok s)
    (ht : OK.create env x y z { args with nlags := nlags, weight := weight, enableStatistics := stat, pseudoInvType := type } = .ok t)
    (h : (args.params ≠ .none ∨ ∃ m, args.variogramModel = .gstools m) ∨ nlags = args.nlags ∧ weight = args.weight)
    (calls : List (Call OKUpdate ExecArgs)) : (t.run env calls).1 = (s.run env calls).1 := by
  refine (OK.Alike.run env ?_ calls).symm
  obtain ⟨hp, exact, name, model, fArg, pArg, sc₀, an₀, f, fname, xc, yc, sc, an, adj, vp, lags, ps, stats, he, h1, h2, h3, h4, h5, h6, rfl⟩ := OK.create_ok hs
  obtain ⟨hp', exact', name', model', fArg', pArg', sc₀', an₀', f', fname', xc', yc', sc', an', adj', vp', lags', ps', stats', he', h1', h2', h3', h4', h5', h6', rfl⟩ := OK.create_ok ht
  dsimp only at *
  obtain rfl : exact = exact' := BoolArg.bool.inj (he.symm.trans he')
  have e_h1 := Except.ok.inj (h1.symm.trans h1')
  simp only [Prod.mk.injEq] at e_h1
  obtain ⟨rfl, rfl, rfl, rfl, rfl, rfl⟩ := e_h1
  have e_h2 := Except.ok.inj (h2.symm.trans h2')
  simp only [Prod.mk.injEq] at e_h2
  obtain ⟨rfl, rfl⟩ := e_h2
  have e_h3 := Except.ok.inj (h3.symm.trans h3')
  simp only [Prod.mk.injEq] at e_h3
  obtain ⟨rfl, rfl, rfl, rfl, rfl⟩ := e_h3
  have e_h4 := Except.ok.inj (h4.symm.trans h4')
  subst e_h4
  have hps : ps = ps' := by
    rcases h with h | ⟨rfl, rfl⟩
    · have hl : pArg ≠ .none := by
        unfold OK.resolveModel at h1
        cases hv : args.variogramModel with
        | name nm =>
          rw [hv] at h1
          cases h1
          rcases h with h | ⟨m, h⟩
          · exact h
          · rw [hv] at h; cases h
        | gstools m =>
          rw [hv] at h1
          simp only [py_bind_eq_ok] at h1
          obtain ⟨_, -, h1⟩ := h1
          split_ifs at h1 <;> cases h1
          simp
      obtain ⟨l, rfl⟩ := makeParams_none hl h4
      rw [initialize_params h5 rfl, initialize_params h5' rfl]
    · have e := Except.ok.inj (h5.symm.trans h5')
      exact (Prod.mk.inj e).2
  subst hps
  exact ⟨hp, hp', rfl⟩

theorem OK3D.execute_settings {n : ℕ} (env : Env) (s : OK3D n) (ea : ExecArgs3) (l : List (ℝ × ℝ)) (st : Option Stats) (p : String)
    (hs : s.pseudoInvType ∈ ["pinv", "pinvh"]) (hp : p ∈ ["pinv", "pinvh"]) :
    OK3D.execute env { s with lags := l, stats := st, pseudoInvType := p } ea = OK3D.execute env s ea := by
  have h1 : ({ s with lags := l, stats := st, pseudoInvType := p } : OK3D n).getKrigingMatrix = s.getKrigingMatrix := rfl
  have h2 : ∀ pts, ({ s with lags := l, stats := st, pseudoInvType := p } : OK3D n).adjustQuery ea pts = s.adjustQuery ea pts := fun _ => rfl
  have h3 : ∀ a qs mask b k, ({ s with lags := l, stats := st, pseudoInvType := p } : OK3D n).movingWindow env a qs mask b k = s.movingWindow env a qs mask b k :=
    fun _ _ _ _ _ => rfl
  have h4 : ∀ γ qs mask b, ({ s with lags := l, stats := st, pseudoInvType := p } : OK3D n).globalKrige (coreKrigingMatrix n γ s.dataDist) qs mask b =
      s.globalKrige (coreKrigingMatrix n γ s.dataDist) qs mask b := by
    intro γ qs mask b
    have hi := invertPython_type (coreKrigingMatrix_symm γ s.dataDist_comm) s.pseudoInv hp hs
    simp only [OK3D.globalKrige, OK3D.execVector, OK3D.execLoop, hi]
    rfl
  unfold OK3D.execute
  rw [h1, OK3D.getKrigingMatrix_eq]
  cases s.variogramFunction s.params with
  | error e => rfl
  | ok γ => simp only [h2, h3, h4, py_ok_bind, py_pure]

theorem OK3D.reAniso_settings {n : ℕ} (s : OK3D n) (l : List (ℝ × ℝ)) (st : Option Stats) (p : String) (an : Aniso3) :
    ({ s with lags := l, stats := st, pseudoInvType := p } : OK3D n).reAniso an = { s.reAniso an with lags := l, stats := st, pseudoInvType := p } := by
  unfold OK3D.reAniso
  dsimp only
  repeat' split
  all_goals rfl

theorem OK3D.update_settings {n : ℕ} (env : Env) (s : OK3D n) (u : Update3D) (l : List (ℝ × ℝ)) (st : Option Stats) (p : String) :
    (s.update env u).2.pseudoInvType = s.pseudoInvType ∧
    ∃ l' st', OK3D.update env { s with lags := l, stats := st, pseudoInvType := p } u = ((s.update env u).1, { (s.update env u).2 with lags := l', stats := st', pseudoInvType := p }) := by
  have hre : ∀ vm m f fn an, OK3D.reAniso { s with lags := l, stats := st, pseudoInvType := p, variogramModel := vm, model := m, variogramFunction := f, functionName := fn } an =
      { OK3D.reAniso { s with variogramModel := vm, model := m, variogramFunction := f, functionName := fn } an with lags := l, stats := st, pseudoInvType := p } :=
    fun vm m f fn an => OK3D.reAniso_settings { s with variogramModel := vm, model := m, variogramFunction := f, functionName := fn } l st p an
  have hty : ∀ (t : OK3D n) an, (t.reAniso an).pseudoInvType = t.pseudoInvType := by
    intro t an
    unfold OK3D.reAniso
    dsimp only
    repeat' split
    all_goals rfl
  unfold OK3D.update
  dsimp only
  cases OK3D.resolveModel env u.variogramModel u.variogramFunction u.params u.aniso with
  | error e => cases u.variogramModel <;> exact ⟨rfl, l, st, rfl⟩
  | ok r =>
  obtain ⟨name, m, fArg, pArg, an⟩ := r
  dsimp only
  cases chooseFunction name fArg with
  | error e => exact ⟨rfl, l, st, rfl⟩
  | ok q =>
  obtain ⟨f, fn⟩ := q
  dsimp only
  rw [hre]
  generalize hR : OK3D.reAniso _ an = R
  have hRt : R.pseudoInvType = s.pseudoInvType := by rw [← hR, hty]
  cases makeVariogramParameterList name pArg with
  | error e => exact ⟨hRt, l, st, rfl⟩
  | ok vp =>
  dsimp only
  have hpt : (OK3D.pts { R with lags := l, stats := st, pseudoInvType := p }) = R.pts := rfl
  rw [hpt]
  cases initializeVariogramModel env R.pts R.VALUES name vp f u.nlags u.weight "euclidean" with
  | error e => exact ⟨hRt, l, st, rfl⟩
  | ok r =>
  obtain ⟨lags, ps⟩ := r
  dsimp only
  generalize hF : findStatistics _ _ f ps _ _ = F
  generalize hF' : findStatistics _ _ f ps _ _ = F'
  have hFF : F = F' := by rw [← hF, ← hF']; rfl
  subst hFF
  cases F with
  | error e => exact ⟨hRt, lags, st, rfl⟩
  | ok st' => exact ⟨hRt, lags, some st', rfl⟩

/-- Alike but for the recorded lags and statistics and the routine for pseudo-inverses. -/
def OK3D.Alike {n : ℕ} (s t : OK3D n) : Prop :=
  s.pseudoInvType ∈ ["pinv", "pinvh"] ∧ t.pseudoInvType ∈ ["pinv", "pinvh"] ∧
    t = { s with lags := t.lags, stats := t.stats, pseudoInvType := t.pseudoInvType }

theorem OK3D.Alike.run {n : ℕ} (env : Env) {s t : OK3D n} (h : s.Alike t) (calls : List (Call Update3D ExecArgs3)) :
    (s.run env calls).1 = (t.run env calls).1 := by
  refine runCalls_sim OK3D.Alike ?_ ?_ calls s t h
  · rintro s t u ⟨h1, h2, h3⟩
    obtain ⟨h4, l, st, h5⟩ := OK3D.update_settings env s u t.lags t.stats t.pseudoInvType
    rw [← h3] at h5
    rw [h5]
    exact ⟨rfl, h4 ▸ h1, h2, rfl⟩
  · rintro s t ea ⟨h1, h2, h3⟩
    rw [h3]
    exact (OK3D.execute_settings env s ea t.lags t.stats t.pseudoInvType h1 h2).symm

/-- Two objects that differ only in `pseudo_inv_type` and, with given parameters or a GSTools model, in `nlags` and
`weight` answer every later sequence of calls alike. -/
theorem C84_settings_ok3d {n : ℕ} {env : Env} {x y z val : Fin n → ℝ} {args : OK3DArgs} {nlags : ℕ} {weight : Bool} {type : String}
    {s t : OK3D n} (hs : OK3D.create env x y z val args = .ok s)
    (ht : OK3D.create env x y z val { args with nlags := nlags, weight := weight, pseudoInvType := type } = .ok t)
    (h : (args.params ≠ .none ∨ ∃ m, args.variogramModel = .gstools m) ∨ nlags = args.nlags ∧ weight = args.weight)
    (calls : List (Call Update3D ExecArgs3)) : (t.run env calls).1 = (s.run env calls).1 := by
  refine (OK3D.Alike.run env ?_ calls).symm
  obtain ⟨hp, exact, name, model, fArg, pArg, an, f, fname, xc, yc, zc, vp, lags, ps, stats, he, h1, h2, m1, m2, m3, h4, h5, h6, rfl⟩ := OK3D.create_ok hs
  obtain ⟨hp', exact', name', model', fArg', pArg', an', f', fname', xc', yc', zc', vp', lags', ps', stats', he', h1', h2', m1', m2', m3', h4', h5', h6', rfl⟩ := OK3D.create_ok ht
  dsimp only at *
  obtain rfl : exact = exact' := BoolArg.bool.inj (he.symm.trans he')
  have e_h1 := Except.ok.inj (h1.symm.trans h1')
  simp only [Prod.mk.injEq] at e_h1
  obtain ⟨rfl, rfl, rfl, rfl, rfl⟩ := e_h1
  have e_h2 := Except.ok.inj (h2.symm.trans h2')
  simp only [Prod.mk.injEq] at e_h2
  obtain ⟨rfl, rfl⟩ := e_h2
  have e_m1 := Except.ok.inj (m1.symm.trans m1')
  subst e_m1
  have e_m2 := Except.ok.inj (m2.symm.trans m2')
  subst e_m2
  have e_m3 := Except.ok.inj (m3.symm.trans m3')
  subst e_m3
  have e_h4 := Except.ok.inj (h4.symm.trans h4')
  subst e_h4
  have hps : ps = ps' := by
    rcases h with h | ⟨rfl, rfl⟩
    · have hl : pArg ≠ .none := by
        unfold OK3D.resolveModel at h1
        cases hv : args.variogramModel with
        | name nm =>
          rw [hv] at h1
          cases h1
          rcases h with h | ⟨m, h⟩
          · exact h
          · rw [hv] at h; cases h
        | gstools m =>
          rw [hv] at h1
          simp only [py_bind_eq_ok] at h1
          obtain ⟨_, -, h1⟩ := h1
          split_ifs at h1 <;> cases h1
          simp
      obtain ⟨l, rfl⟩ := makeParams_none hl h4
      rw [initialize_params h5 rfl, initialize_params h5' rfl]
    · have e := Except.ok.inj (h5.symm.trans h5')
      exact (Prod.mk.inj e).2
  subst hps
  exact ⟨hp, hp', rfl⟩

theorem UK.execute_settings {n : ℕ} (s : UK n) (ea : UKExecArgs) (l : List (ℝ × ℝ)) (st : Option Stats) (p : String)
    (hs : s.pseudoInvType ∈ ["pinv", "pinvh"]) (hp : p ∈ ["pinv", "pinvh"]) :
    UK.execute { s with lags := l, stats := st, pseudoInvType := p } ea = UK.execute s ea := by
  have h1 : ({ s with lags := l, stats := st, pseudoInvType := p } : UK n).getKrigingMatrix = s.getKrigingMatrix := rfl
  have h2 : ({ s with lags := l, stats := st, pseudoInvType := p } : UK n).specGrids ea = s.specGrids ea := rfl
  have h3 : ∀ pts, ({ s with lags := l, stats := st, pseudoInvType := p } : UK n).queries pts = s.queries pts := fun _ => rfl
  have hsym : ∀ γ, (ukMatrix s.nWithDrifts γ s.dataDist s.driftData).transpose = ukMatrix s.nWithDrifts γ s.dataDist s.driftData := by
    intro γ
    have hN : s.nWithDrifts + 1 = n + s.driftData.length + 1 := by rw [s.driftData_length]
    exact transpose_of_submatrix hN (semivar_comm s.dataDist_comm) (ukMatrix_submatrix _ γ s.dataDist s.driftData hN)
  have h4 : ∀ γ qs spec, ({ s with lags := l, stats := st, pseudoInvType := p } : UK n).execVector (ukMatrix s.nWithDrifts γ s.dataDist s.driftData) qs spec =
      s.execVector (ukMatrix s.nWithDrifts γ s.dataDist s.driftData) qs spec := by
    intro γ qs spec
    have hi := invertPython_type (hsym γ) s.pseudoInv hp hs
    unfold UK.execVector
    dsimp only
    erw [hi]
    rfl
  have h5 : ∀ γ qs mask spec, ({ s with lags := l, stats := st, pseudoInvType := p } : UK n).execLoop (ukMatrix s.nWithDrifts γ s.dataDist s.driftData) qs mask spec =
      s.execLoop (ukMatrix s.nWithDrifts γ s.dataDist s.driftData) qs mask spec := by
    intro γ qs mask spec
    have hi := invertPython_type (hsym γ) s.pseudoInv hp hs
    unfold UK.execLoop
    dsimp only
    erw [hi]
    rfl
  unfold UK.execute
  congr 1
  unfold UK.executeW
  rw [h1, UK.getKrigingMatrix_eq]
  cases s.variogramFunction s.params with
  | error e => rfl
  | ok γ =>
  refine if_congr Iff.rfl (Eq.trans (b := Except.error .valueError) rfl rfl) ?_
  refine py_bind_congr fun aw haw => ?_
  obtain rfl := (Except.ok.inj haw).symm
  refine py_bind_congr fun pm _ => ?_
  refine py_bind_congr fun sp _ => ?_
  refine if_congr Iff.rfl (Eq.trans (b := Except.error .castingError) rfl rfl) ?_
  refine if_congr Iff.rfl ?_ (if_congr Iff.rfl ?_ (Eq.trans (b := Except.error .valueError) rfl rfl))
  · exact congrArg (· >>= _) (h4 γ _ _)
  · exact congrArg (· >>= _) (h5 γ _ _ _)

theorem UK.reAniso_settings {n : ℕ} (s : UK n) (l : List (ℝ × ℝ)) (st : Option Stats) (p : String) (sc an : ℝ) :
    ({ s with lags := l, stats := st, pseudoInvType := p } : UK n).reAniso sc an = { s.reAniso sc an with lags := l, stats := st, pseudoInvType := p } := by
  unfold UK.reAniso
  dsimp only
  repeat' split
  all_goals rfl

theorem UK.update_settings {n : ℕ} (env : Env) (s : UK n) (u : OKUpdate) (l : List (ℝ × ℝ)) (st : Option Stats) (p : String) :
    (s.update env u).2.pseudoInvType = s.pseudoInvType ∧
    ∃ l' st', UK.update env { s with lags := l, stats := st, pseudoInvType := p } u = ((s.update env u).1, { (s.update env u).2 with lags := l', stats := st', pseudoInvType := p }) := by
  have hre : ∀ vm m f fn sc an, UK.reAniso { s with lags := l, stats := st, pseudoInvType := p, variogramModel := vm, model := m, variogramFunction := f, functionName := fn } sc an =
      { UK.reAniso { s with variogramModel := vm, model := m, variogramFunction := f, functionName := fn } sc an with lags := l, stats := st, pseudoInvType := p } :=
    fun vm m f fn sc an => UK.reAniso_settings { s with variogramModel := vm, model := m, variogramFunction := f, functionName := fn } l st p sc an
  have hty : ∀ (t : UK n) sc an, (t.reAniso sc an).pseudoInvType = t.pseudoInvType := by
    intro t sc an
    unfold UK.reAniso
    dsimp only
    repeat' split
    all_goals rfl
  unfold UK.update
  dsimp only
  cases UK.resolveModel env u.variogramModel u.variogramFunction u.params u.anisotropyScaling u.anisotropyAngle with
  | error e => cases u.variogramModel <;> exact ⟨rfl, l, st, rfl⟩
  | ok r =>
  obtain ⟨name, m, fArg, pArg, sc, an⟩ := r
  dsimp only
  cases chooseFunction name fArg with
  | error e => exact ⟨rfl, l, st, rfl⟩
  | ok q =>
  obtain ⟨f, fn⟩ := q
  dsimp only
  rw [hre]
  generalize hR : UK.reAniso _ sc an = R
  have hRt : R.pseudoInvType = s.pseudoInvType := by rw [← hR, hty]
  cases makeVariogramParameterList name pArg with
  | error e => exact ⟨hRt, l, st, rfl⟩
  | ok vp =>
  dsimp only
  have hpt : (UK.pts { R with lags := l, stats := st, pseudoInvType := p }) = R.pts := rfl
  rw [hpt]
  cases initializeVariogramModel env R.pts R.Z name vp f u.nlags u.weight "euclidean" with
  | error e => exact ⟨hRt, l, st, rfl⟩
  | ok r =>
  obtain ⟨lags, ps⟩ := r
  dsimp only
  generalize hF : findStatistics _ _ f ps _ _ = F
  generalize hF' : findStatistics _ _ f ps _ _ = F'
  have hFF : F = F' := by rw [← hF, ← hF']; rfl
  subst hFF
  cases F with
  | error e => exact ⟨hRt, lags, st, rfl⟩
  | ok st' => exact ⟨hRt, lags, some st', rfl⟩

/-- Alike but for the recorded lags and statistics and the routine for pseudo-inverses. -/
def UK.Alike {n : ℕ} (s t : UK n) : Prop :=
  s.pseudoInvType ∈ ["pinv", "pinvh"] ∧ t.pseudoInvType ∈ ["pinv", "pinvh"] ∧
    t = { s with lags := t.lags, stats := t.stats, pseudoInvType := t.pseudoInvType }

theorem UK.Alike.run {n : ℕ} (env : Env) {s t : UK n} (h : s.Alike t) (calls : List (Call OKUpdate UKExecArgs)) :
    (s.run env calls).1 = (t.run env calls).1 := by
  refine runCalls_sim UK.Alike ?_ ?_ calls s t h
  · rintro s t u ⟨h1, h2, h3⟩
    obtain ⟨h4, l, st, h5⟩ := UK.update_settings env s u t.lags t.stats t.pseudoInvType
    rw [← h3] at h5
    rw [h5]
    exact ⟨rfl, h4 ▸ h1, h2, rfl⟩
  · rintro s t ea ⟨h1, h2, h3⟩
    rw [h3]
    exact (UK.execute_settings s ea t.lags t.stats t.pseudoInvType h1 h2).symm

/-- Two objects that differ only in `pseudo_inv_type` and, with given parameters or a GSTools model, in `nlags` and
`weight` answer every later sequence of calls alike. -/
theorem C84_settings_uk {n : ℕ} {env : Env} {x y z : Fin n → ℝ} {args : UKArgs} {nlags : ℕ} {weight : Bool} {type : String}
    {s t : UK n} (hs : UK.create env x y z args = .ok s)
    (ht : UK.create env x y z { args with nlags := nlags, weight := weight, pseudoInvType := type } = .ok t)
    (h : (args.params ≠ .none ∨ ∃ m, args.variogramModel = .gstools m) ∨ nlags = args.nlags ∧ weight = args.weight)
    (calls : List (Call OKUpdate UKExecArgs)) : (t.run env calls).1 = (s.run env calls).1 := by
  refine (UK.Alike.run env ?_ calls).symm
  obtain ⟨hp, exact, name, model, fArg, pArg, sc, an, f, fname, xc, yc, vp, lags, ps, stats, ext, plog, spec, func, he, h1, h2, m1, m2, h4, h5, h6, h7, h8, h9, h10, rfl⟩ := UK.create_ok hs
  obtain ⟨hp', exact', name', model', fArg', pArg', sc', an', f', fname', xc', yc', vp', lags', ps', stats', ext', plog', spec', func', he', h1', h2', m1', m2', h4', h5', h6', h7', h8', h9', h10', rfl⟩ := UK.create_ok ht
  dsimp only at *
  obtain rfl : exact = exact' := BoolArg.bool.inj (he.symm.trans he')
  have e_h1 := Except.ok.inj (h1.symm.trans h1')
  simp only [Prod.mk.injEq] at e_h1
  obtain ⟨rfl, rfl, rfl, rfl, rfl, rfl⟩ := e_h1
  have e_h2 := Except.ok.inj (h2.symm.trans h2')
  simp only [Prod.mk.injEq] at e_h2
  obtain ⟨rfl, rfl⟩ := e_h2
  have e_m1 := Except.ok.inj (m1.symm.trans m1')
  subst e_m1
  have e_m2 := Except.ok.inj (m2.symm.trans m2')
  subst e_m2
  have e_h4 := Except.ok.inj (h4.symm.trans h4')
  subst e_h4
  have e_h7 := Except.ok.inj (h7.symm.trans h7')
  subst e_h7
  have e_h8 := Except.ok.inj (h8.symm.trans h8')
  subst e_h8
  have e_h9 := Except.ok.inj (h9.symm.trans h9')
  subst e_h9
  have e_h10 := Except.ok.inj (h10.symm.trans h10')
  subst e_h10
  have hps : ps = ps' := by
    rcases h with h | ⟨rfl, rfl⟩
    · have hl : pArg ≠ .none := by
        unfold UK.resolveModel at h1
        cases hv : args.variogramModel with
        | name nm =>
          rw [hv] at h1
          cases h1
          rcases h with h | ⟨m, h⟩
          · exact h
          · rw [hv] at h; cases h
        | gstools m =>
          rw [hv] at h1
          simp only [py_bind_eq_ok] at h1
          obtain ⟨_, -, h1⟩ := h1
          split_ifs at h1 <;> cases h1
          simp
      obtain ⟨l, rfl⟩ := makeParams_none hl h4
      rw [initialize_params h5 rfl, initialize_params h5' rfl]
    · have e := Except.ok.inj (h5.symm.trans h5')
      exact (Prod.mk.inj e).2
  subst hps
  exact ⟨hp, hp', rfl⟩

theorem UK3D.execute_settings {n : ℕ} (s : UK3D n) (ea : UK3DExecArgs) (l : List (ℝ × ℝ)) (st : Option Stats) (p : String)
    (hs : s.pseudoInvType ∈ ["pinv", "pinvh"]) (hp : p ∈ ["pinv", "pinvh"]) :
    UK3D.execute { s with lags := l, stats := st, pseudoInvType := p } ea = UK3D.execute s ea := by
  have h1 : ({ s with lags := l, stats := st, pseudoInvType := p } : UK3D n).getKrigingMatrix = s.getKrigingMatrix := rfl
  have h2 : ({ s with lags := l, stats := st, pseudoInvType := p } : UK3D n).specGrids ea = s.specGrids ea := rfl
  have h3 : ∀ pts, ({ s with lags := l, stats := st, pseudoInvType := p } : UK3D n).queries pts = s.queries pts := fun _ => rfl
  have hsym : ∀ γ, (ukMatrix s.nWithDrifts γ s.dataDist s.driftData).transpose = ukMatrix s.nWithDrifts γ s.dataDist s.driftData := by
    intro γ
    have hN : s.nWithDrifts + 1 = n + s.driftData.length + 1 := by rw [s.driftData_length]
    exact transpose_of_submatrix hN (semivar_comm s.dataDist_comm) (ukMatrix_submatrix _ γ s.dataDist s.driftData hN)
  have h4 : ∀ γ qs spec, ({ s with lags := l, stats := st, pseudoInvType := p } : UK3D n).execVector (ukMatrix s.nWithDrifts γ s.dataDist s.driftData) qs spec =
      s.execVector (ukMatrix s.nWithDrifts γ s.dataDist s.driftData) qs spec := by
    intro γ qs spec
    have hi := invertPython_type (hsym γ) s.pseudoInv hp hs
    unfold UK3D.execVector
    dsimp only
    erw [hi]
    rfl
  have h5 : ∀ γ qs mask spec, ({ s with lags := l, stats := st, pseudoInvType := p } : UK3D n).execLoop (ukMatrix s.nWithDrifts γ s.dataDist s.driftData) qs mask spec =
      s.execLoop (ukMatrix s.nWithDrifts γ s.dataDist s.driftData) qs mask spec := by
    intro γ qs mask spec
    have hi := invertPython_type (hsym γ) s.pseudoInv hp hs
    unfold UK3D.execLoop
    dsimp only
    erw [hi]
    rfl
  unfold UK3D.execute
  congr 1
  unfold UK3D.executeW
  rw [h1, UK3D.getKrigingMatrix_eq]
  cases s.variogramFunction s.params with
  | error e => rfl
  | ok γ =>
  refine if_congr Iff.rfl (Eq.trans (b := Except.error .valueError) rfl rfl) ?_
  refine py_bind_congr fun aw haw => ?_
  obtain rfl := (Except.ok.inj haw).symm
  refine py_bind_congr fun pm _ => ?_
  refine py_bind_congr fun sp _ => ?_
  refine if_congr Iff.rfl (Eq.trans (b := Except.error .castingError) rfl rfl) ?_
  refine if_congr Iff.rfl ?_ (if_congr Iff.rfl ?_ (Eq.trans (b := Except.error .valueError) rfl rfl))
  · exact congrArg (· >>= _) (h4 γ _ _)
  · exact congrArg (· >>= _) (h5 γ _ _ _)

theorem UK3D.reAniso_settings {n : ℕ} (s : UK3D n) (l : List (ℝ × ℝ)) (st : Option Stats) (p : String) (an : Aniso3) :
    ({ s with lags := l, stats := st, pseudoInvType := p } : UK3D n).reAniso an = { s.reAniso an with lags := l, stats := st, pseudoInvType := p } := by
  unfold UK3D.reAniso
  dsimp only
  repeat' split
  all_goals rfl

theorem UK3D.update_settings {n : ℕ} (env : Env) (s : UK3D n) (u : Update3D) (l : List (ℝ × ℝ)) (st : Option Stats) (p : String) :
    (s.update env u).2.pseudoInvType = s.pseudoInvType ∧
    ∃ l' st', UK3D.update env { s with lags := l, stats := st, pseudoInvType := p } u = ((s.update env u).1, { (s.update env u).2 with lags := l', stats := st', pseudoInvType := p }) := by
  have hre : ∀ vm m f fn an, UK3D.reAniso { s with lags := l, stats := st, pseudoInvType := p, variogramModel := vm, model := m, variogramFunction := f, functionName := fn } an =
      { UK3D.reAniso { s with variogramModel := vm, model := m, variogramFunction := f, functionName := fn } an with lags := l, stats := st, pseudoInvType := p } :=
    fun vm m f fn an => UK3D.reAniso_settings { s with variogramModel := vm, model := m, variogramFunction := f, functionName := fn } l st p an
  have hty : ∀ (t : UK3D n) an, (t.reAniso an).pseudoInvType = t.pseudoInvType := by
    intro t an
    unfold UK3D.reAniso
    dsimp only
    repeat' split
    all_goals rfl
  unfold UK3D.update
  dsimp only
  cases OK3D.resolveModel env u.variogramModel u.variogramFunction u.params u.aniso with
  | error e => cases u.variogramModel <;> exact ⟨rfl, l, st, rfl⟩
  | ok r =>
  obtain ⟨name, m, fArg, pArg, an⟩ := r
  dsimp only
  cases chooseFunction name fArg with
  | error e => exact ⟨rfl, l, st, rfl⟩
  | ok q =>
  obtain ⟨f, fn⟩ := q
  dsimp only
  rw [hre]
  generalize hR : UK3D.reAniso _ an = R
  have hRt : R.pseudoInvType = s.pseudoInvType := by rw [← hR, hty]
  cases makeVariogramParameterList name pArg with
  | error e => exact ⟨hRt, l, st, rfl⟩
  | ok vp =>
  dsimp only
  have hpt : (UK3D.pts { R with lags := l, stats := st, pseudoInvType := p }) = R.pts := rfl
  rw [hpt]
  cases initializeVariogramModel env R.pts R.VALUES name vp f u.nlags u.weight "euclidean" with
  | error e => exact ⟨hRt, l, st, rfl⟩
  | ok r =>
  obtain ⟨lags, ps⟩ := r
  dsimp only
  generalize hF : findStatistics _ _ f ps _ _ = F
  generalize hF' : findStatistics _ _ f ps _ _ = F'
  have hFF : F = F' := by rw [← hF, ← hF']; rfl
  subst hFF
  cases F with
  | error e => exact ⟨hRt, lags, st, rfl⟩
  | ok st' => exact ⟨hRt, lags, some st', rfl⟩

/-- Alike but for the recorded lags and statistics and the routine for pseudo-inverses. -/
def UK3D.Alike {n : ℕ} (s t : UK3D n) : Prop :=
  s.pseudoInvType ∈ ["pinv", "pinvh"] ∧ t.pseudoInvType ∈ ["pinv", "pinvh"] ∧
    t = { s with lags := t.lags, stats := t.stats, pseudoInvType := t.pseudoInvType }

theorem UK3D.Alike.run {n : ℕ} (env : Env) {s t : UK3D n} (h : s.Alike t) (calls : List (Call Update3D UK3DExecArgs)) :
    (s.run env calls).1 = (t.run env calls).1 := by
  refine runCalls_sim UK3D.Alike ?_ ?_ calls s t h
  · rintro s t u ⟨h1, h2, h3⟩
    obtain ⟨h4, l, st, h5⟩ := UK3D.update_settings env s u t.lags t.stats t.pseudoInvType
    rw [← h3] at h5
    rw [h5]
    exact ⟨rfl, h4 ▸ h1, h2, rfl⟩
  · rintro s t ea ⟨h1, h2, h3⟩
    rw [h3]
    exact (UK3D.execute_settings s ea t.lags t.stats t.pseudoInvType h1 h2).symm

/-- Two objects that differ only in `pseudo_inv_type` and, with given parameters or a GSTools model, in `nlags` and
`weight` answer every later sequence of calls alike. -/
theorem C84_settings_uk3d {n : ℕ} {env : Env} {x y z val : Fin n → ℝ} {args : UK3DArgs} {nlags : ℕ} {weight : Bool} {type : String}
    {s t : UK3D n} (hs : UK3D.create env x y z val args = .ok s)
    (ht : UK3D.create env x y z val { args with nlags := nlags, weight := weight, pseudoInvType := type } = .ok t)
    (h : (args.params ≠ .none ∨ ∃ m, args.variogramModel = .gstools m) ∨ nlags = args.nlags ∧ weight = args.weight)
    (calls : List (Call Update3D UK3DExecArgs)) : (t.run env calls).1 = (s.run env calls).1 := by
  refine (UK3D.Alike.run env ?_ calls).symm
  obtain ⟨hp, exact, name, model, fArg, pArg, an, f, fname, xc, yc, zc, vp, lags, ps, stats, spec, func, he, h1, h2, m1, m2, m3, h4, h5, h6, h7, h8, rfl⟩ := UK3D.create_ok hs
  obtain ⟨hp', exact', name', model', fArg', pArg', an', f', fname', xc', yc', zc', vp', lags', ps', stats', spec', func', he', h1', h2', m1', m2', m3', h4', h5', h6', h7', h8', rfl⟩ := UK3D.create_ok ht
  dsimp only at *
  obtain rfl : exact = exact' := BoolArg.bool.inj (he.symm.trans he')
  have e_h1 := Except.ok.inj (h1.symm.trans h1')
  simp only [Prod.mk.injEq] at e_h1
  obtain ⟨rfl, rfl, rfl, rfl, rfl⟩ := e_h1
  have e_h2 := Except.ok.inj (h2.symm.trans h2')
  simp only [Prod.mk.injEq] at e_h2
  obtain ⟨rfl, rfl⟩ := e_h2
  have e_m1 := Except.ok.inj (m1.symm.trans m1')
  subst e_m1
  have e_m2 := Except.ok.inj (m2.symm.trans m2')
  subst e_m2
  have e_m3 := Except.ok.inj (m3.symm.trans m3')
  subst e_m3
  have e_h4 := Except.ok.inj (h4.symm.trans h4')
  subst e_h4
  have e_h7 := Except.ok.inj (h7.symm.trans h7')
  subst e_h7
  have e_h8 := Except.ok.inj (h8.symm.trans h8')
  subst e_h8
  have hps : ps = ps' := by
    rcases h with h | ⟨rfl, rfl⟩
    · have hl : pArg ≠ .none := by
        unfold OK3D.resolveModel at h1
        cases hv : args.variogramModel with
        | name nm =>
          rw [hv] at h1
          cases h1
          rcases h with h | ⟨m, h⟩
          · exact h
          · rw [hv] at h; cases h
        | gstools m =>
          rw [hv] at h1
          simp only [py_bind_eq_ok] at h1
          obtain ⟨_, -, h1⟩ := h1
          split_ifs at h1 <;> cases h1
          simp
      obtain ⟨l, rfl⟩ := makeParams_none hl h4
      rw [initialize_params h5 rfl, initialize_params h5' rfl]
    · have e := Except.ok.inj (h5.symm.trans h5')
      exact (Prod.mk.inj e).2
  subst hps
  exact ⟨hp, hp', rfl⟩

/-! ### Examples: three data at one place, solved with both routines for pseudo-inverses -/

section Examples
open Demo

example (z : Fin 3 → ℝ) (calls : List (Call OKUpdate ExecArgs)) : ∃ s t,
    OK.create stdEnv 0 0 z { any "spherical" [3, 2, 1] with pseudoInv := true } = .ok s ∧
    OK.create stdEnv 0 0 z { any "spherical" [3, 2, 1] with pseudoInv := true, nlags := 3, weight := true, enableStatistics := true, pseudoInvType := "pinvh" } = .ok t ∧
    (t.run stdEnv calls).1 = (s.run stdEnv calls).1 := by
  obtain ⟨s, hs, -⟩ := C39_create_2d stdEnv (by norm_num) (0 : Fin 3 → ℝ) 0 z { any "spherical" [3, 2, 1] with pseudoInv := true } rfl
    (by simp [any]) rfl (.inl rfl) rfl rfl sph_valid
  obtain ⟨t, ht, -⟩ := C39_create_2d stdEnv (by norm_num) (0 : Fin 3 → ℝ) 0 z { any "spherical" [3, 2, 1] with pseudoInv := true, nlags := 3, weight := true, enableStatistics := true, pseudoInvType := "pinvh" } rfl
    (by simp) rfl (.inl rfl) rfl rfl sph_valid
  exact ⟨s, t, hs, ht, C84_settings_ok hs ht (.inl (.inl (by simp [any]))) calls⟩

example (z : Fin 3 → ℝ) (calls : List (Call Update3D ExecArgs3)) : ∃ s t,
    OK3D.create stdEnv 0 0 0 z { any3 "spherical" [3, 2, 1] with pseudoInv := true } = .ok s ∧
    OK3D.create stdEnv 0 0 0 z { any3 "spherical" [3, 2, 1] with pseudoInv := true, nlags := 3, weight := true, pseudoInvType := "pinvh" } = .ok t ∧
    (t.run stdEnv calls).1 = (s.run stdEnv calls).1 := by
  obtain ⟨s, hs, -⟩ := C39_create_3d stdEnv (by norm_num) (0 : Fin 3 → ℝ) 0 0 z { any3 "spherical" [3, 2, 1] with pseudoInv := true } rfl
    (by simp [any3]) rfl rfl rfl sph_valid
  obtain ⟨t, ht, -⟩ := C39_create_3d stdEnv (by norm_num) (0 : Fin 3 → ℝ) 0 0 z { any3 "spherical" [3, 2, 1] with pseudoInv := true, nlags := 3, weight := true, pseudoInvType := "pinvh" } rfl
    (by simp) rfl rfl rfl sph_valid
  exact ⟨s, t, hs, ht, C84_settings_ok3d hs ht (.inl (.inl (by simp [any3]))) calls⟩

example (z : Fin 3 → ℝ) (calls : List (Call OKUpdate UKExecArgs)) : ∃ s t,
    UK.create stdEnv 0 0 z { uany "spherical" [3, 2, 1] with pseudoInv := true } = .ok s ∧
    UK.create stdEnv 0 0 z { uany "spherical" [3, 2, 1] with pseudoInv := true, nlags := 3, weight := true, pseudoInvType := "pinvh" } = .ok t ∧
    (t.run stdEnv calls).1 = (s.run stdEnv calls).1 := by
  obtain ⟨s, hs, -⟩ := C39_create_uk stdEnv (by norm_num) (0 : Fin 3 → ℝ) 0 z { uany "spherical" [3, 2, 1] with pseudoInv := true } rfl
    (by simp [uany]) rfl rfl rfl sph_valid (fun i => by simp [ExternalCovers, uany]) (by simp [uany]) (by simp [uany]) (by simp [uany])
  obtain ⟨t, ht, -⟩ := C39_create_uk stdEnv (by norm_num) (0 : Fin 3 → ℝ) 0 z { uany "spherical" [3, 2, 1] with pseudoInv := true, nlags := 3, weight := true, pseudoInvType := "pinvh" } rfl
    (by simp) rfl rfl rfl sph_valid (fun i => by simp [ExternalCovers, uany]) (by simp [uany]) (by simp [uany]) (by simp [uany])
  exact ⟨s, t, hs, ht, C84_settings_uk hs ht (.inl (.inl (by simp [uany]))) calls⟩

example (z : Fin 3 → ℝ) (calls : List (Call Update3D UK3DExecArgs)) : ∃ s t,
    UK3D.create stdEnv 0 0 0 z { uany3 "spherical" [3, 2, 1] with pseudoInv := true } = .ok s ∧
    UK3D.create stdEnv 0 0 0 z { uany3 "spherical" [3, 2, 1] with pseudoInv := true, nlags := 3, weight := true, pseudoInvType := "pinvh" } = .ok t ∧
    (t.run stdEnv calls).1 = (s.run stdEnv calls).1 := by
  obtain ⟨s, hs, -⟩ := C39_create_uk3d stdEnv (by norm_num) (0 : Fin 3 → ℝ) 0 0 z { uany3 "spherical" [3, 2, 1] with pseudoInv := true } rfl
    (by simp [uany3]) rfl rfl rfl sph_valid (by simp [uany3]) (by simp [uany3])
  obtain ⟨t, ht, -⟩ := C39_create_uk3d stdEnv (by norm_num) (0 : Fin 3 → ℝ) 0 0 z { uany3 "spherical" [3, 2, 1] with pseudoInv := true, nlags := 3, weight := true, pseudoInvType := "pinvh" } rfl
    (by simp) rfl rfl rfl sph_valid (by simp [uany3]) (by simp [uany3])
  exact ⟨s, t, hs, ht, C84_settings_uk3d hs ht (.inl (.inl (by simp [uany3]))) calls⟩

end Examples

end
end PyKrige
