import Verif.Model.Report
import Verif.Props.C20
import Verif.Props.C25
import Verif.Examples.More

/-!
# C51: the reporting methods describe the variogram in use

`get_variogram_points` returns the mean distances of the lag bins and the variogram that `execute` uses at them;
`get_statistics` and `get_epsilon_residuals` the cross-validation statistics of the data under that variogram - also
after any history of calls ending with a successful update, followed by any `execute` calls.
-/

set_option linter.unusedSectionVars false

namespace PyKrige
noncomputable section
open Spec

/-- `ls` are the mean distances of pairs of data (`pairs`: distance and semivariance of each pair), grouped into at
most `nlags` non-empty bins of increasing distance; each pair is in one bin. -/
def Spec.LagsOf (pairs : Multiset (ℝ × ℝ)) (nlags : ℕ) (ls : List ℝ) : Prop :=
  ∃ groups : List (List (ℝ × ℝ)), (groups.flatten : Multiset (ℝ × ℝ)) = pairs ∧
    ls = groups.map (fun g => (g.map Prod.fst).sum / (g.length : ℝ)) ∧ (∀ g ∈ groups, g ≠ []) ∧
    groups.length ≤ nlags ∧ groups.Pairwise (fun g g' => ∀ p ∈ g, ∀ q ∈ g', p.1 < q.1)

/-- What the statistics report: the standardised residuals `eps` of predicting each datum from those before it
(`IsStatistics`), and if there are at least two, their mean, mean square and `cR`. -/
def Spec.ReportOf {n : ℕ} (D : Fin n → Fin n → ℝ) (z : Fin n → ℝ) (γ : ℝ → ℝ) (eps : List ℝ) (q : ℝ × ℝ × ℝ) : Prop :=
  ∃ st : Stats, IsStatistics D z γ st ∧ eps = st.epsilon ∧ (2 ≤ eps.length →
    q.1 = |eps.sum| / ((eps.length : ℝ) - 1) ∧
    q.2.1 = (eps.map fun e => e ^ 2).sum / ((eps.length : ℝ) - 1) ∧
    q.2.2 = q.2.1 * ((st.sigma.map fun s => s ^ 2).prod) ^ (1 / (st.sigma.length : ℝ)))

theorem lagsOf {n m : ℕ} {X : Fin n → Fin m → ℝ} {y : Fin n → ℝ} {nlags : ℕ} {ct : String} {ev : List (ℝ × ℝ)}
    (h : experimentalVariogram X y nlags ct = .ok ev) (hn : 0 < nlags) :
    LagsOf (pairs X y ct) nlags (ev.map Prod.fst) := by
  obtain ⟨gs, h1, rfl, h3, h4, h5, -⟩ := C18_groups h hn
  exact ⟨gs, h1, by simp, h3, h4, h5⟩

theorem summary_of {n m : ℕ} {X : Fin n → Fin m → ℝ} {y : Fin n → ℝ} {f : VFun} {ps : List ℝ}
    {ct : String} {pseudo : Bool} {st : Stats} (h : findStatistics X y f ps ct pseudo = .ok st) {D : Fin n → Fin n → ℝ}
    {z : Fin n → ℝ} {γ : ℝ → ℝ} (hs : IsStatistics D z γ st) : ReportOf D z γ st.epsilon st.summary := by
  refine ⟨st, hs, rfl, fun h2 => ?_⟩
  obtain ⟨e1, e2, e3, -⟩ := C20_summary h h2
  exact ⟨e1, e2, e3⟩

/-- Calls of `execute` leave the object as it is. -/
theorem runCalls_executes {σ U A : Type} (upd : σ → U → Py Unit × σ) (exe : σ → A → Py ExecResult) (s : σ)
    (l : List A) : (runCalls upd exe s (l.map .execute)).2 = s := by
  induction l with
  | nil => rfl
  | cons a l ih => exact ih

/-! ### OK -/

/-- `get_variogram_points`: lags and the variogram at them. -/
theorem C51_points_ok {n : ℕ} {env : Env} {x y z : Fin n → ℝ} {args : OKArgs} {s : OK n}
    (h : OK.create env x y z args = .ok s) (hn : 0 < args.nlags) {γ : ℝ → ℝ}
    (hγ : s.variogramFunction s.params = .ok γ) :
    ∃ ls, s.getVariogramPoints = .ok (ls, ls.map γ) ∧
      LagsOf (pairsBy (fun i j => okDistance args (x i, y i) (x j, y j)) z) args.nlags ls := by
  obtain ⟨X, hX, hp⟩ := C18_object_ok h
  refine ⟨s.lags.map Prod.fst, ?_, hp ▸ lagsOf hX hn⟩
  unfold OK.getVariogramPoints
  rw [hγ]
  simp [py_pure, py_ok_bind, Function.comp_def]

/-- `get_statistics` and `get_epsilon_residuals`. -/
theorem C51_statistics_ok {n : ℕ} {env : Env} {x y z : Fin n → ℝ} {args : OKArgs} {s : OK n}
    (h : OK.create env x y z args = .ok s) (hs : args.enableStatistics = true) {γ : ℝ → ℝ}
    (hγ : s.variogramFunction s.params = .ok γ)
    (hp : args.pseudoInv = false ∨ ∀ i : Fin n, Regular (semivar γ fun a b : Fin i.val =>
      (fun i j => okDistance args (x i, y i) (x j, y j)) (before i a) (before i b)) (noDrift : Fin 0 → Fin i.val → ℝ)) :
    ∃ eps q, s.getEpsilonResiduals = some eps ∧ s.getStatistics = some q ∧
      ReportOf (fun i j => okDistance args (x i, y i) (x j, y j)) z γ eps q := by
  obtain ⟨st, e1, e2⟩ := C20_object_ok h hs hγ hp
  obtain ⟨hpt, exact, name, model, fArg, pArg, sc₀, an₀, f, fname, xc, yc, sc, an, adj, vp, lags, ps, stats,
    h1, h2, h3, h4, h5, h6, h7, rfl⟩ := OK.create_ok h
  rw [if_pos hs] at h7
  obtain ⟨st', h8, h9⟩ := py_map_eq_ok.1 h7
  subst h9
  obtain rfl := Option.some.inj e1
  exact ⟨_, _, rfl, rfl, summary_of h8 e2⟩

/-- Statistics that were not asked for are not reported. -/
theorem C51_disabled_ok {n : ℕ} {env : Env} {x y z : Fin n → ℝ} {args : OKArgs} {s : OK n}
    (h : OK.create env x y z args = .ok s) (hs : args.enableStatistics = false) :
    s.getEpsilonResiduals = none ∧ s.getStatistics = none := by
  obtain ⟨hpt, exact, name, model, fArg, pArg, sc₀, an₀, f, fname, xc, yc, sc, an, adj, vp, lags, ps, stats,
    h1, h2, h3, h4, h5, h6, h7, rfl⟩ := OK.create_ok h
  rw [if_neg (by simp [hs])] at h7
  cases h7
  exact ⟨rfl, rfl⟩

/-- After any calls, a successful update and any calls of `execute`, the reports are those of an object newly constructed
with the settings of the update (and statistics). -/
theorem C51_update_ok {n : ℕ} {env : Env} {x y z : Fin n → ℝ} {args : OKArgs} {s s' t : OK n}
    (h : OK.create env x y z args = .ok s) (before : List (Call OKUpdate ExecArgs)) {u : OKUpdate}
    (hu : OK.update env (s.run env before).2 u = (.ok (), s')) (after : List ExecArgs)
    (ht : t = (s'.run env (after.map .execute)).2) :
    ∃ fresh, OK.create env x y z { args.withUpdate u with enableStatistics := true } = .ok fresh ∧
      t.getVariogramPoints = fresh.getVariogramPoints ∧
      t.getStatistics = fresh.getStatistics ∧ t.getEpsilonResiduals = fresh.getEpsilonResiduals := by
  have ht : t = s' := ht.trans (runCalls_executes _ _ _ _)
  subst ht
  have hk : (s.run env before).2.Keeps x y z { args with enableStatistics := true } := by
    have : (s.run env before).2.Keeps x y z args :=
      runCalls_inv (fun s => OK.Keeps x y z args s) (fun _ u hs => OK.update_keeps hs u) before s (OK.create_keeps h)
    exact ⟨this.ptype, this.exact, this.ct, this.pinv, this.pinvType, this.X, this.Y, this.Z, this.coords⟩
  refine ⟨_, OK.update_fresh hk hu, rfl, rfl, rfl⟩

/-! ### OK3D -/

/-- `get_statistics` and `get_epsilon_residuals`. -/
theorem C51_statistics_ok3d {n : ℕ} {env : Env} {x y z v : Fin n → ℝ} {args : OK3DArgs} {s : OK3D n}
    (h : OK3D.create env x y z v args = .ok s) {γ : ℝ → ℝ}
    (hγ : s.variogramFunction s.params = .ok γ)
    (hp : args.pseudoInv = false ∨ ∀ i : Fin n, Regular (semivar γ fun a b : Fin i.val =>
      (fun i j => ok3Distance args (x i, y i, z i) (x j, y j, z j)) (before i a) (before i b)) (noDrift : Fin 0 → Fin i.val → ℝ)) :
    ∃ eps q, s.getEpsilonResiduals = some eps ∧ s.getStatistics = some q ∧
      ReportOf (fun i j => ok3Distance args (x i, y i, z i) (x j, y j, z j)) v γ eps q := by
  obtain ⟨st, e1, e2⟩ := C20_object_ok3 h hγ hp
  obtain ⟨hpt, exact, name, model, fArg, pArg, an, f, fname, xc, yc, zc, vp, lags, ps, stats,
    h1, h2, h3, h4, h5, h6, h7, h8, h9, rfl⟩ := OK3D.create_ok h
  obtain rfl := Option.some.inj e1
  exact ⟨_, _, rfl, rfl, summary_of h9 e2⟩

/-- After any calls, a successful update and any calls of `execute`, the reports are those of an object newly constructed
with the settings of the update. -/
theorem C51_update_ok3d {n : ℕ} {env : Env} {x y z v : Fin n → ℝ} {args : OK3DArgs} {s s' t : OK3D n}
    (h : OK3D.create env x y z v args = .ok s) (before : List (Call Update3D ExecArgs3)) {u : Update3D}
    (hu : OK3D.update env (s.run env before).2 u = (.ok (), s')) (after : List ExecArgs3)
    (ht : t = (s'.run env (after.map .execute)).2) :
    ∃ fresh, OK3D.create env x y z v (args.withUpdate u) = .ok fresh ∧
      t.getStatistics = fresh.getStatistics ∧ t.getEpsilonResiduals = fresh.getEpsilonResiduals := by
  have ht : t = s' := ht.trans (runCalls_executes _ _ _ _)
  subst ht
  exact ⟨_, OK3D.update_fresh (runCalls_inv (fun s => OK3D.Keeps x y z v args s) (fun _ u hs => OK3D.update_keeps hs u)
    before s (OK3D.create_keeps h)) hu, rfl, rfl⟩

/-! ### UK -/

/-- `get_variogram_points`: lags and the variogram at them. -/
theorem C51_points_uk {n : ℕ} {env : Env} {x y z : Fin n → ℝ} {args : UKArgs} {s : UK n}
    (h : UK.create env x y z args = .ok s) (hn : 0 < args.nlags) {γ : ℝ → ℝ}
    (hγ : s.variogramFunction s.params = .ok γ) :
    ∃ ls, s.getVariogramPoints = .ok (ls, ls.map γ) ∧
      LagsOf (pairsBy (fun i j => ukDistance args (x i, y i) (x j, y j)) z) args.nlags ls := by
  obtain ⟨X, hX, hp⟩ := C18_object_uk h
  refine ⟨s.lags.map Prod.fst, ?_, hp ▸ lagsOf hX hn⟩
  unfold UK.getVariogramPoints
  rw [hγ]
  simp [py_pure, py_ok_bind, Function.comp_def]

/-- `get_statistics` and `get_epsilon_residuals`. -/
theorem C51_statistics_uk {n : ℕ} {env : Env} {x y z : Fin n → ℝ} {args : UKArgs} {s : UK n}
    (h : UK.create env x y z args = .ok s) {γ : ℝ → ℝ}
    (hγ : s.variogramFunction s.params = .ok γ)
    (hp : args.pseudoInv = false ∨ ∀ i : Fin n, Regular (semivar γ fun a b : Fin i.val =>
      (fun i j => ukDistance args (x i, y i) (x j, y j)) (before i a) (before i b)) (noDrift : Fin 0 → Fin i.val → ℝ)) :
    ∃ eps q, s.getEpsilonResiduals = some eps ∧ s.getStatistics = some q ∧
      ReportOf (fun i j => ukDistance args (x i, y i) (x j, y j)) z γ eps q := by
  obtain ⟨st, e1, e2⟩ := C20_object_uk h hγ hp
  obtain ⟨hpt, exact, name, model, fArg, pArg, sc, an, f, fname, xc, yc, vp, lags, ps, stats, ext, plog, spec,
    func, h1, h2, h3, h4, h5, h6, h7, h8, h9, h10, h11, h12, rfl⟩ := UK.create_ok h
  obtain rfl := Option.some.inj e1
  exact ⟨_, _, rfl, rfl, summary_of h8 e2⟩

/-- After any calls, a successful update and any calls of `execute`, the reports are those of an object newly constructed
with the settings of the update. -/
theorem C51_update_uk {n : ℕ} {env : Env} {x y z : Fin n → ℝ} {args : UKArgs} {s s' t : UK n}
    (h : UK.create env x y z args = .ok s) (before : List (Call OKUpdate UKExecArgs)) {u : OKUpdate}
    (hu : UK.update env (s.run env before).2 u = (.ok (), s')) (after : List UKExecArgs)
    (ht : t = (s'.run env (after.map .execute)).2) :
    ∃ fresh, UK.create env x y z (args.withUpdate u) = .ok fresh ∧
      t.getVariogramPoints = fresh.getVariogramPoints ∧
      t.getStatistics = fresh.getStatistics ∧ t.getEpsilonResiduals = fresh.getEpsilonResiduals := by
  have ht : t = s' := ht.trans (runCalls_executes _ _ _ _)
  subst ht
  obtain ⟨sc₀, an₀, -, hk₀⟩ := UK.create_keeps h
  have hk : (s.run env before).2.Keeps sc₀ an₀ x y z args :=
    runCalls_inv (fun s => UK.Keeps sc₀ an₀ x y z args s) (fun _ u hs => UK.update_keeps hs u) before s hk₀
  obtain ⟨plog, -, -, hc⟩ := UK.update_fresh hk hu
  exact ⟨_, hc, rfl, rfl, rfl⟩

/-! ### UK3D -/

/-- `get_statistics` and `get_epsilon_residuals`. -/
theorem C51_statistics_uk3d {n : ℕ} {env : Env} {x y z v : Fin n → ℝ} {args : UK3DArgs} {s : UK3D n}
    (h : UK3D.create env x y z v args = .ok s) {γ : ℝ → ℝ}
    (hγ : s.variogramFunction s.params = .ok γ)
    (hp : args.pseudoInv = false ∨ ∀ i : Fin n, Regular (semivar γ fun a b : Fin i.val =>
      (fun i j => uk3Distance args (x i, y i, z i) (x j, y j, z j)) (before i a) (before i b)) (noDrift : Fin 0 → Fin i.val → ℝ)) :
    ∃ eps q, s.getEpsilonResiduals = some eps ∧ s.getStatistics = some q ∧
      ReportOf (fun i j => uk3Distance args (x i, y i, z i) (x j, y j, z j)) v γ eps q := by
  obtain ⟨st, e1, e2⟩ := C20_object_uk3 h hγ hp
  obtain ⟨hpt, exact, name, model, fArg, pArg, an, f, fname, xc, yc, zc, vp, lags, ps, stats, spec, func,
    h1, h2, h3, h4, h5, h6, h7, h8, h9, h10, h11, rfl⟩ := UK3D.create_ok h
  obtain rfl := Option.some.inj e1
  exact ⟨_, _, rfl, rfl, summary_of h9 e2⟩

/-- After any calls, a successful update and any calls of `execute`, the reports are those of an object newly constructed
with the settings of the update. -/
theorem C51_update_uk3d {n : ℕ} {env : Env} {x y z v : Fin n → ℝ} {args : UK3DArgs} {s s' t : UK3D n}
    (h : UK3D.create env x y z v args = .ok s) (before : List (Call Update3D UK3DExecArgs)) {u : Update3D}
    (hu : UK3D.update env (s.run env before).2 u = (.ok (), s')) (after : List UK3DExecArgs)
    (ht : t = (s'.run env (after.map .execute)).2) :
    ∃ fresh, UK3D.create env x y z v (args.withUpdate u) = .ok fresh ∧
      t.getStatistics = fresh.getStatistics ∧ t.getEpsilonResiduals = fresh.getEpsilonResiduals := by
  have ht : t = s' := ht.trans (runCalls_executes _ _ _ _)
  subst ht
  exact ⟨_, UK3D.update_fresh (runCalls_inv (fun s => UK3D.Keeps x y z v args s) (fun _ u hs => UK3D.update_keeps hs u)
    before s (UK3D.create_keeps h)) hu, rfl, rfl⟩

/-- A concrete case: four data, spherical variogram; the lags and the variogram at them. -/
example (z : Fin 4 → ℝ) : ∃ s γ ls, OK.create stdEnv Demo.x4 Demo.y4 z (Demo.any "spherical" [3, 2, 1]) = .ok s ∧
    Builtin "spherical" (listMeaning "spherical" [3, 2, 1]) γ ∧ s.getVariogramPoints = .ok (ls, ls.map γ) ∧
    LagsOf (pairsBy (fun i j => okDistance (Demo.any "spherical" [3, 2, 1]) (Demo.x4 i, Demo.y4 i) (Demo.x4 j, Demo.y4 j)) z)
      6 ls := by
  obtain ⟨s, h, hp, -, -⟩ := Demo.any_ok (n := 4) (by norm_num) z Demo.sph_valid Demo.sph_grows Demo.inj4
  obtain ⟨hb, -, -, γ, hγ, -, -⟩ := Demo.sph_valid.builtin
  obtain ⟨hev, -⟩ := chosen_evaluates hγ hb (OK.create_function h (m := "spherical") rfl)
  rw [← hp] at hev
  obtain ⟨ls, h1, h2⟩ := C51_points_ok h (by simp [Demo.any]) hev
  exact ⟨s, γ, ls, h, hγ, h1, h2⟩

/-- A concrete case: the statistics of two data in three dimensions, after an update that changes the slope. -/
example : ∃ (s s' : OK3D 2) (eps : List ℝ) (q : ℝ × ℝ × ℝ) (γ : ℝ → ℝ), OK3D.create stdEnv Demo.X Demo.O Demo.O ![1, 3] (Demo.args3 0 true false) = .ok s ∧
    OK3D.update stdEnv s { variogramModel := .name "linear", params := .list [1, 0] } = (.ok (), s') ∧
    s'.getEpsilonResiduals = some eps ∧ s'.getStatistics = some q ∧ s'.variogramFunction s'.params = .ok γ ∧
      ReportOf (fun i j => ok3Distance (Demo.args3 0 true false) (Demo.X i, Demo.O i, Demo.O i)
      (Demo.X j, Demo.O j, Demo.O j)) ![1, 3] γ eps q := by
  obtain ⟨s, h, hp, hf, -⟩ := Demo.ok3 ![1, 3] 0 true false
  let u : Update3D := { variogramModel := .name "linear", params := .list [1, 0] }
  have hw : (Demo.args3 0 true false).withUpdate u = Demo.args3 0 true false := rfl
  obtain ⟨s', hu⟩ := C25_ok3d_accepts h [] (u := u) (by rw [hw]; exact h)
  obtain ⟨fresh, hc, e1, e2⟩ := C51_update_ok3d h [] hu [] rfl
  rw [hw, h] at hc
  obtain rfl := Except.ok.inj hc
  obtain ⟨fresh', hc', -⟩ := C25_ok3d h [] hu
  have hs' := OK3D.update_fresh (OK3D.create_keeps h) hu
  rw [hw, h] at hs'
  obtain rfl := Except.ok.inj hs'
  obtain ⟨eps, q, h1, h2, h3⟩ := C51_statistics_ok3d h (γ := fun d => d + 0) (by rw [hf, hp]; exact Demo.vario 0) (.inl rfl)
  exact ⟨s, s, eps, q, _, h, hu, h1, h2, by rw [hf, hp]; exact Demo.vario 0, h3⟩

end
end PyKrige
