import Verif.Props.C25
import Verif.Lemmas.Accept

/-! # C26: a failed update

The claim "if `update_variogram_model` raises, later calls behave as if it had not been made" is false of the code:
`C26_wrong_silent` (later `execute` calls return other numbers) and `C26_wrong_raises` (later `execute` calls raise).

It holds, after any history of calls, when the *model* is refused (unknown name, custom without a callable, an
unusable GSTools model): the `_model_partial` theorems.  On a newly constructed object it also holds when only the
*parameters* are malformed and model and anisotropy are not changed: the `_params_partial` theorems. -/

namespace PyKrige
noncomputable section
open Spec

/-! ### OK -/

/-- `s` and `t` differ at most in the stored model object and its name. -/
def OK.SameButName {n : ℕ} (s t : OK n) : Prop := ∃ vm m, t = { s with variogramModel := vm, model := m }

theorem OK.SameButName.run {n : ℕ} {s t : OK n} (env : Env) (h : s.SameButName t)
    (later : List (Call OKUpdate ExecArgs)) : (t.run env later).1 = (s.run env later).1 := by
  refine (runCalls_sim (fun s t => OK.SameButName s t) ?_ ?_ later _ _ h).symm
  · rintro s t u ⟨vm, m, rfl⟩
    exact ⟨rfl, _, _, rfl⟩
  · rintro s t a ⟨vm, m, rfl⟩
    rfl

theorem OK.update_unusable {n : ℕ} {env : Env} {s : OK n} {u : OKUpdate}
    (hbad : ¬ OKModelUsable env s.coordinatesType u.variogramModel u.variogramFunction) :
    (∃ e, (OK.update env s u).1 = .error e) ∧ s.SameButName (OK.update env s u).2 := by
  have h1 := mt (OK.resolve_iff env s.coordinatesType u.variogramModel u.variogramFunction u.params u.anisotropyScaling u.anisotropyAngle).1 hbad
  unfold OK.update
  dsimp only
  split
  · refine ⟨⟨_, rfl⟩, ?_⟩
    dsimp only
    split <;> exact ⟨_, _, rfl⟩
  · next name model fArg pArg sc' an' hr =>
    split
    · exact ⟨⟨_, rfl⟩, _, _, rfl⟩
    · next f fname hf => exact absurd ⟨name, model, fArg, pArg, sc', an', _, hr, hf⟩ h1

/-- After any history: if the model is refused, `update_variogram_model` raises and no later call notices. -/
theorem C26_ok_model_partial {n : ℕ} {env : Env} {x y z : Fin n → ℝ} {args : OKArgs} {s : OK n}
    (h : OK.create env x y z args = .ok s) (before : List (Call OKUpdate ExecArgs)) {u : OKUpdate}
    (hbad : ¬ OKModelUsable env args.coordinatesType u.variogramModel u.variogramFunction) :
    ∃ e s', OK.update env (s.run env before).2 u = (.error e, s') ∧
      ∀ later, (s'.run env later).1 = ((s.run env before).2.run env later).1 := by
  have hk : (s.run env before).2.Keeps x y z args :=
    runCalls_inv (fun s => OK.Keeps x y z args s) (fun _ u hs => OK.update_keeps hs u) before s (OK.create_keeps h)
  rw [← hk.ct] at hbad
  obtain ⟨⟨e, he⟩, hs⟩ := OK.update_unusable hbad
  exact ⟨e, _, Prod.ext he rfl, hs.run env⟩

theorem OK.reAniso_self {n : ℕ} {env : Env} {x y z : Fin n → ℝ} {args : OKArgs} {s : OK n}
    (h : OK.create env x y z args = .ok s) {m : String} (hm : args.variogramModel = .name m) :
    s.reAniso args.anisotropyScaling args.anisotropyAngle = s := by
  obtain ⟨hp, exact, name, model, fArg, pArg, sc₀, an₀, f, fname, xc, yc, sc, an, adj, vp, lags, ps, stats,
    h1, h2, h3, h4, h5, h6, h7, rfl⟩ := OK.create_ok h
  rw [hm] at h2
  simp only [OK.resolveModel, Except.ok.injEq, Prod.mk.injEq] at h2
  obtain ⟨rfl, rfl, rfl, rfl, rfl, rfl⟩ := h2
  unfold OK.reAniso
  dsimp only
  unfold OK.setupCoordinates at h4
  split at h4
  · next he =>
    obtain ⟨xc', hx, h4⟩ := py_bind_eq_ok.1 h4
    obtain ⟨yc', hy, h4⟩ := py_bind_eq_ok.1 h4
    simp only [py_pure, Except.ok.injEq, Prod.mk.injEq] at h4
    obtain ⟨rfl, rfl, rfl, rfl, rfl⟩ := h4
    rw [if_neg (by simp)]
  · next he =>
    split at h4
    · next hg =>
      simp only [Except.ok.injEq, Prod.mk.injEq] at h4
      obtain ⟨rfl, rfl, rfl, rfl, rfl⟩ := h4
      split
      · rfl
      · rfl
    · simp at h4

theorem OK.reAniso_name {n : ℕ} (s : OK n) (vm : ModelArg) (m : Option GsModel) (sc an : ℝ) :
    ({ s with variogramModel := vm, model := m } : OK n).reAniso sc an =
      { s.reAniso sc an with variogramModel := vm, model := m } := by
  unfold OK.reAniso
  dsimp only
  split_ifs <;> rfl

theorem OK.create_function {n : ℕ} {env : Env} {x y z : Fin n → ℝ} {args : OKArgs} {s : OK n}
    (h : OK.create env x y z args = .ok s) {m : String} (hm : args.variogramModel = .name m) :
    chooseFunction m args.variogramFunction = .ok (s.variogramFunction, s.functionName) := by
  obtain ⟨hp, exact, name, model, fArg, pArg, sc₀, an₀, f, fname, xc, yc, sc, an, adj, vp, lags, ps, stats, h1, h2, h3, h4, h5, h6, h7, rfl⟩ := OK.create_ok h
  rw [hm] at h2
  simp only [OK.resolveModel, Except.ok.injEq, Prod.mk.injEq] at h2
  obtain ⟨rfl, rfl, rfl, rfl, rfl, rfl⟩ := h2
  exact h3

/-- On a newly constructed object (with any calls of `execute` in between): if model and anisotropy are kept and the
parameters are malformed, `update_variogram_model` raises and no later call notices. -/
theorem C26_ok_params_partial {n : ℕ} {env : Env} {x y z : Fin n → ℝ} {args : OKArgs} {s : OK n}
    (h : OK.create env x y z args = .ok s) {m : String} (hb : m ∈ builtins)
    (hm : args.variogramModel = .name m) {u : OKUpdate} (hu : u.variogramModel = .name m)
    (ha : u.anisotropyScaling = args.anisotropyScaling ∧ u.anisotropyAngle = args.anisotropyAngle) (hbad : ¬ ParamsWellFormed m u.params) :
    ∃ e s', OK.update env s u = (.error e, s') ∧ ∀ later, (s'.run env later).1 = (s.run env later).1 := by
  obtain ⟨e, he⟩ := makeParams_err (Or.inl hb) hbad
  have hf := OK.create_function h hm
  have hf' : chooseFunction m u.variogramFunction = .ok (s.variogramFunction, s.functionName) := by
    have hc : m ≠ "custom" := by rintro rfl; simp [builtins] at hb
    unfold chooseFunction at hf ⊢
    simpa [hc] using hf
  have hr := OK.reAniso_self h hm
  have key : OK.update env s u = (.error e, { s with variogramModel := .name m, model := none }) := by
    unfold OK.update
    dsimp only
    rw [hu, ha.1, ha.2]
    simp only [OK.resolveModel, hf', he]
    have e1 := OK.reAniso_name s (.name m) none args.anisotropyScaling args.anisotropyAngle
    rw [hr] at e1
    simp only [e1]
  exact ⟨e, _, key, OK.SameButName.run env ⟨_, _, rfl⟩⟩

/-! ### OK3D -/

/-- `s` and `t` differ at most in the stored model object and its name. -/
def OK3D.SameButName {n : ℕ} (s t : OK3D n) : Prop := ∃ vm m, t = { s with variogramModel := vm, model := m }

theorem OK3D.SameButName.run {n : ℕ} {s t : OK3D n} (env : Env) (h : s.SameButName t)
    (later : List (Call Update3D ExecArgs3)) : (t.run env later).1 = (s.run env later).1 := by
  refine (runCalls_sim (fun s t => OK3D.SameButName s t) ?_ ?_ later _ _ h).symm
  · rintro s t u ⟨vm, m, rfl⟩
    exact ⟨rfl, _, _, rfl⟩
  · rintro s t a ⟨vm, m, rfl⟩
    rfl

theorem OK3D.update_unusable {n : ℕ} {env : Env} {s : OK3D n} {u : Update3D}
    (hbad : ¬ ModelUsable3 env u.variogramModel u.variogramFunction) :
    (∃ e, (OK3D.update env s u).1 = .error e) ∧ s.SameButName (OK3D.update env s u).2 := by
  have h1 := mt (OK3D.resolve_iff env u.variogramModel u.variogramFunction u.params u.aniso).1 hbad
  unfold OK3D.update
  dsimp only
  split
  · refine ⟨⟨_, rfl⟩, ?_⟩
    dsimp only
    split <;> exact ⟨_, _, rfl⟩
  · next name model fArg pArg an' hr =>
    split
    · exact ⟨⟨_, rfl⟩, _, _, rfl⟩
    · next f fname hf => exact absurd ⟨name, model, fArg, pArg, an', _, hr, hf⟩ h1

/-- After any history: if the model is refused, `update_variogram_model` raises and no later call notices. -/
theorem C26_ok3d_model_partial {n : ℕ} {env : Env} {x y z v : Fin n → ℝ} {args : OK3DArgs} {s : OK3D n}
    (_h : OK3D.create env x y z v args = .ok s) (before : List (Call Update3D ExecArgs3)) {u : Update3D}
    (hbad : ¬ ModelUsable3 env u.variogramModel u.variogramFunction) :
    ∃ e s', OK3D.update env (s.run env before).2 u = (.error e, s') ∧
      ∀ later, (s'.run env later).1 = ((s.run env before).2.run env later).1 := by
  obtain ⟨⟨e, he⟩, hs⟩ := OK3D.update_unusable hbad
  exact ⟨e, _, Prod.ext he rfl, hs.run env⟩

theorem OK3D.reAniso_self {n : ℕ} {env : Env} {x y z v : Fin n → ℝ} {args : OK3DArgs} {s : OK3D n}
    (h : OK3D.create env x y z v args = .ok s) {m : String} (hm : args.variogramModel = .name m) :
    s.reAniso args.aniso = s := by
  obtain ⟨hpt, exact, name, model, fArg, pArg, an, f, fname, xc, yc, zc, vp, lags, ps, stats, h1, h2, h3, hxc, hyc, hzc, h5, h6, h7, rfl⟩ := OK3D.create_ok h
  rw [hm] at h2
  simp only [OK3D.resolveModel, Except.ok.injEq, Prod.mk.injEq] at h2
  obtain ⟨rfl, rfl, rfl, rfl, rfl⟩ := h2
  unfold OK3D.reAniso
  rw [if_neg (by simp)]

theorem OK3D.reAniso_name {n : ℕ} (s : OK3D n) (vm : ModelArg) (m : Option GsModel) (an : Aniso3) :
    ({ s with variogramModel := vm, model := m } : OK3D n).reAniso an =
      { s.reAniso an with variogramModel := vm, model := m } := by
  unfold OK3D.reAniso
  dsimp only
  split_ifs <;> rfl

theorem OK3D.create_function {n : ℕ} {env : Env} {x y z v : Fin n → ℝ} {args : OK3DArgs} {s : OK3D n}
    (h : OK3D.create env x y z v args = .ok s) {m : String} (hm : args.variogramModel = .name m) :
    chooseFunction m args.variogramFunction = .ok (s.variogramFunction, s.functionName) := by
  obtain ⟨hpt, exact, name, model, fArg, pArg, an, f, fname, xc, yc, zc, vp, lags, ps, stats, h1, h2, h3, hxc, hyc, hzc, h5, h6, h7, rfl⟩ := OK3D.create_ok h
  rw [hm] at h2
  simp only [OK3D.resolveModel, Except.ok.injEq, Prod.mk.injEq] at h2
  obtain ⟨rfl, rfl, rfl, rfl, rfl⟩ := h2
  exact h3

/-- On a newly constructed object (with any calls of `execute` in between): if model and anisotropy are kept and the
parameters are malformed, `update_variogram_model` raises and no later call notices. -/
theorem C26_ok3d_params_partial {n : ℕ} {env : Env} {x y z v : Fin n → ℝ} {args : OK3DArgs} {s : OK3D n}
    (h : OK3D.create env x y z v args = .ok s) {m : String} (hb : m ∈ builtins)
    (hm : args.variogramModel = .name m) {u : Update3D} (hu : u.variogramModel = .name m)
    (ha : u.aniso = args.aniso) (hbad : ¬ ParamsWellFormed m u.params) :
    ∃ e s', OK3D.update env s u = (.error e, s') ∧ ∀ later, (s'.run env later).1 = (s.run env later).1 := by
  obtain ⟨e, he⟩ := makeParams_err (Or.inl hb) hbad
  have hf := OK3D.create_function h hm
  have hf' : chooseFunction m u.variogramFunction = .ok (s.variogramFunction, s.functionName) := by
    have hc : m ≠ "custom" := by rintro rfl; simp [builtins] at hb
    unfold chooseFunction at hf ⊢
    simpa [hc] using hf
  have hr := OK3D.reAniso_self h hm
  have key : OK3D.update env s u = (.error e, { s with variogramModel := .name m, model := none }) := by
    unfold OK3D.update
    dsimp only
    rw [hu, ha]
    simp only [OK3D.resolveModel, hf', he]
    have e1 := OK3D.reAniso_name s (.name m) none args.aniso
    rw [hr] at e1
    simp only [e1]
  exact ⟨e, _, key, OK3D.SameButName.run env ⟨_, _, rfl⟩⟩

/-! ### UK -/

/-- `s` and `t` differ at most in the stored model object and its name. -/
def UK.SameButName {n : ℕ} (s t : UK n) : Prop := ∃ vm m, t = { s with variogramModel := vm, model := m }

theorem UK.SameButName.run {n : ℕ} {s t : UK n} (env : Env) (h : s.SameButName t)
    (later : List (Call OKUpdate UKExecArgs)) : (t.run env later).1 = (s.run env later).1 := by
  refine (runCalls_sim (fun s t => UK.SameButName s t) ?_ ?_ later _ _ h).symm
  · rintro s t u ⟨vm, m, rfl⟩
    exact ⟨rfl, _, _, rfl⟩
  · rintro s t a ⟨vm, m, rfl⟩
    rfl

theorem UK.update_unusable {n : ℕ} {env : Env} {s : UK n} {u : OKUpdate}
    (hbad : ¬ UKModelUsable env u.variogramModel u.variogramFunction) :
    (∃ e, (UK.update env s u).1 = .error e) ∧ s.SameButName (UK.update env s u).2 := by
  have h1 := mt (UK.resolve_iff env u.variogramModel u.variogramFunction u.params u.anisotropyScaling u.anisotropyAngle).1 hbad
  unfold UK.update
  dsimp only
  split
  · refine ⟨⟨_, rfl⟩, ?_⟩
    dsimp only
    split <;> exact ⟨_, _, rfl⟩
  · next name model fArg pArg sc' an' hr =>
    split
    · exact ⟨⟨_, rfl⟩, _, _, rfl⟩
    · next f fname hf => exact absurd ⟨name, model, fArg, pArg, sc', an', _, hr, hf⟩ h1

/-- After any history: if the model is refused, `update_variogram_model` raises and no later call notices. -/
theorem C26_uk_model_partial {n : ℕ} {env : Env} {x y z : Fin n → ℝ} {args : UKArgs} {s : UK n}
    (_h : UK.create env x y z args = .ok s) (before : List (Call OKUpdate UKExecArgs)) {u : OKUpdate}
    (hbad : ¬ UKModelUsable env u.variogramModel u.variogramFunction) :
    ∃ e s', UK.update env (s.run env before).2 u = (.error e, s') ∧
      ∀ later, (s'.run env later).1 = ((s.run env before).2.run env later).1 := by
  obtain ⟨⟨e, he⟩, hs⟩ := UK.update_unusable hbad
  exact ⟨e, _, Prod.ext he rfl, hs.run env⟩

theorem UK.reAniso_self {n : ℕ} {env : Env} {x y z : Fin n → ℝ} {args : UKArgs} {s : UK n}
    (h : UK.create env x y z args = .ok s) {m : String} (hm : args.variogramModel = .name m) :
    s.reAniso args.anisotropyScaling args.anisotropyAngle = s := by
  obtain ⟨hpt, exact, name, model, fArg, pArg, sc, an, f, fname, xc, yc, vp, lags, ps, stats, ext, plog, spec, func, h1, h2, h3, hxc, hyc, h5, h6, h7, hext, hplog, hspec, hfunc, rfl⟩ := UK.create_ok h
  rw [hm] at h2
  simp only [UK.resolveModel, Except.ok.injEq, Prod.mk.injEq] at h2
  obtain ⟨rfl, rfl, rfl, rfl, rfl, rfl⟩ := h2
  unfold UK.reAniso
  rw [if_neg (by simp)]

theorem UK.reAniso_name {n : ℕ} (s : UK n) (vm : ModelArg) (m : Option GsModel) (sc an : ℝ) :
    ({ s with variogramModel := vm, model := m } : UK n).reAniso sc an =
      { s.reAniso sc an with variogramModel := vm, model := m } := by
  unfold UK.reAniso
  dsimp only
  split_ifs <;> rfl

theorem UK.create_function {n : ℕ} {env : Env} {x y z : Fin n → ℝ} {args : UKArgs} {s : UK n}
    (h : UK.create env x y z args = .ok s) {m : String} (hm : args.variogramModel = .name m) :
    chooseFunction m args.variogramFunction = .ok (s.variogramFunction, s.functionName) := by
  obtain ⟨hpt, exact, name, model, fArg, pArg, sc, an, f, fname, xc, yc, vp, lags, ps, stats, ext, plog, spec, func, h1, h2, h3, hxc, hyc, h5, h6, h7, hext, hplog, hspec, hfunc, rfl⟩ := UK.create_ok h
  rw [hm] at h2
  simp only [UK.resolveModel, Except.ok.injEq, Prod.mk.injEq] at h2
  obtain ⟨rfl, rfl, rfl, rfl, rfl, rfl⟩ := h2
  exact h3

/-- On a newly constructed object (with any calls of `execute` in between): if model and anisotropy are kept and the
parameters are malformed, `update_variogram_model` raises and no later call notices. -/
theorem C26_uk_params_partial {n : ℕ} {env : Env} {x y z : Fin n → ℝ} {args : UKArgs} {s : UK n}
    (h : UK.create env x y z args = .ok s) {m : String} (hb : m ∈ builtins)
    (hm : args.variogramModel = .name m) {u : OKUpdate} (hu : u.variogramModel = .name m)
    (ha : u.anisotropyScaling = args.anisotropyScaling ∧ u.anisotropyAngle = args.anisotropyAngle) (hbad : ¬ ParamsWellFormed m u.params) :
    ∃ e s', UK.update env s u = (.error e, s') ∧ ∀ later, (s'.run env later).1 = (s.run env later).1 := by
  obtain ⟨e, he⟩ := makeParams_err (Or.inl hb) hbad
  have hf := UK.create_function h hm
  have hf' : chooseFunction m u.variogramFunction = .ok (s.variogramFunction, s.functionName) := by
    have hc : m ≠ "custom" := by rintro rfl; simp [builtins] at hb
    unfold chooseFunction at hf ⊢
    simpa [hc] using hf
  have hr := UK.reAniso_self h hm
  have key : UK.update env s u = (.error e, { s with variogramModel := .name m, model := none }) := by
    unfold UK.update
    dsimp only
    rw [hu, ha.1, ha.2]
    simp only [UK.resolveModel, hf', he]
    have e1 := UK.reAniso_name s (.name m) none args.anisotropyScaling args.anisotropyAngle
    rw [hr] at e1
    simp only [e1]
  exact ⟨e, _, key, UK.SameButName.run env ⟨_, _, rfl⟩⟩

/-! ### UK3D -/

/-- `s` and `t` differ at most in the stored model object and its name. -/
def UK3D.SameButName {n : ℕ} (s t : UK3D n) : Prop := ∃ vm m, t = { s with variogramModel := vm, model := m }

theorem UK3D.SameButName.run {n : ℕ} {s t : UK3D n} (env : Env) (h : s.SameButName t)
    (later : List (Call Update3D UK3DExecArgs)) : (t.run env later).1 = (s.run env later).1 := by
  refine (runCalls_sim (fun s t => UK3D.SameButName s t) ?_ ?_ later _ _ h).symm
  · rintro s t u ⟨vm, m, rfl⟩
    exact ⟨rfl, _, _, rfl⟩
  · rintro s t a ⟨vm, m, rfl⟩
    rfl

theorem UK3D.update_unusable {n : ℕ} {env : Env} {s : UK3D n} {u : Update3D}
    (hbad : ¬ ModelUsable3 env u.variogramModel u.variogramFunction) :
    (∃ e, (UK3D.update env s u).1 = .error e) ∧ s.SameButName (UK3D.update env s u).2 := by
  have h1 := mt (OK3D.resolve_iff env u.variogramModel u.variogramFunction u.params u.aniso).1 hbad
  unfold UK3D.update
  dsimp only
  split
  · refine ⟨⟨_, rfl⟩, ?_⟩
    dsimp only
    split <;> exact ⟨_, _, rfl⟩
  · next name model fArg pArg an' hr =>
    split
    · exact ⟨⟨_, rfl⟩, _, _, rfl⟩
    · next f fname hf => exact absurd ⟨name, model, fArg, pArg, an', _, hr, hf⟩ h1

/-- After any history: if the model is refused, `update_variogram_model` raises and no later call notices. -/
theorem C26_uk3d_model_partial {n : ℕ} {env : Env} {x y z v : Fin n → ℝ} {args : UK3DArgs} {s : UK3D n}
    (_h : UK3D.create env x y z v args = .ok s) (before : List (Call Update3D UK3DExecArgs)) {u : Update3D}
    (hbad : ¬ ModelUsable3 env u.variogramModel u.variogramFunction) :
    ∃ e s', UK3D.update env (s.run env before).2 u = (.error e, s') ∧
      ∀ later, (s'.run env later).1 = ((s.run env before).2.run env later).1 := by
  obtain ⟨⟨e, he⟩, hs⟩ := UK3D.update_unusable hbad
  exact ⟨e, _, Prod.ext he rfl, hs.run env⟩

theorem UK3D.reAniso_self {n : ℕ} {env : Env} {x y z v : Fin n → ℝ} {args : UK3DArgs} {s : UK3D n}
    (h : UK3D.create env x y z v args = .ok s) {m : String} (hm : args.variogramModel = .name m) :
    s.reAniso args.aniso = s := by
  obtain ⟨hpt, exact, name, model, fArg, pArg, an, f, fname, xc, yc, zc, vp, lags, ps, stats, spec, func, h1, h2, h3, hxc, hyc, hzc, h5, h6, h7, hspec, hfunc, rfl⟩ := UK3D.create_ok h
  rw [hm] at h2
  simp only [OK3D.resolveModel, Except.ok.injEq, Prod.mk.injEq] at h2
  obtain ⟨rfl, rfl, rfl, rfl, rfl⟩ := h2
  unfold UK3D.reAniso
  rw [if_neg (by simp)]

theorem UK3D.reAniso_name {n : ℕ} (s : UK3D n) (vm : ModelArg) (m : Option GsModel) (an : Aniso3) :
    ({ s with variogramModel := vm, model := m } : UK3D n).reAniso an =
      { s.reAniso an with variogramModel := vm, model := m } := by
  unfold UK3D.reAniso
  dsimp only
  split_ifs <;> rfl

theorem UK3D.create_function {n : ℕ} {env : Env} {x y z v : Fin n → ℝ} {args : UK3DArgs} {s : UK3D n}
    (h : UK3D.create env x y z v args = .ok s) {m : String} (hm : args.variogramModel = .name m) :
    chooseFunction m args.variogramFunction = .ok (s.variogramFunction, s.functionName) := by
  obtain ⟨hpt, exact, name, model, fArg, pArg, an, f, fname, xc, yc, zc, vp, lags, ps, stats, spec, func, h1, h2, h3, hxc, hyc, hzc, h5, h6, h7, hspec, hfunc, rfl⟩ := UK3D.create_ok h
  rw [hm] at h2
  simp only [OK3D.resolveModel, Except.ok.injEq, Prod.mk.injEq] at h2
  obtain ⟨rfl, rfl, rfl, rfl, rfl⟩ := h2
  exact h3

/-- On a newly constructed object (with any calls of `execute` in between): if model and anisotropy are kept and the
parameters are malformed, `update_variogram_model` raises and no later call notices. -/
theorem C26_uk3d_params_partial {n : ℕ} {env : Env} {x y z v : Fin n → ℝ} {args : UK3DArgs} {s : UK3D n}
    (h : UK3D.create env x y z v args = .ok s) {m : String} (hb : m ∈ builtins)
    (hm : args.variogramModel = .name m) {u : Update3D} (hu : u.variogramModel = .name m)
    (ha : u.aniso = args.aniso) (hbad : ¬ ParamsWellFormed m u.params) :
    ∃ e s', UK3D.update env s u = (.error e, s') ∧ ∀ later, (s'.run env later).1 = (s.run env later).1 := by
  obtain ⟨e, he⟩ := makeParams_err (Or.inl hb) hbad
  have hf := UK3D.create_function h hm
  have hf' : chooseFunction m u.variogramFunction = .ok (s.variogramFunction, s.functionName) := by
    have hc : m ≠ "custom" := by rintro rfl; simp [builtins] at hb
    unfold chooseFunction at hf ⊢
    simpa [hc] using hf
  have hr := UK3D.reAniso_self h hm
  have key : UK3D.update env s u = (.error e, { s with variogramModel := .name m, model := none }) := by
    unfold UK3D.update
    dsimp only
    rw [hu, ha]
    simp only [OK3D.resolveModel, hf', he]
    have e1 := UK3D.reAniso_name s (.name m) none args.aniso
    rw [hr] at e1
    simp only [e1]
  exact ⟨e, _, key, UK3D.SameButName.run env ⟨_, _, rfl⟩⟩

/-! ### The claim is false in general -/

namespace Demo

/-- An update to a custom model for which the user forgot the parameters. -/
def forgot : OKUpdate := { variogramModel := .name "custom", variogramFunction := .callable (fun _ => .ok fun d => 2 * d) "f" }

/-- An update to the power model with an empty list of parameters. -/
def empty : OKUpdate := { variogramModel := .name "power", params := .list [] }

theorem ok_pts {z : Fin 2 → ℝ} {c : ℝ} {exact pseudo : Bool} {s : OK 2}
    (h : OK.create stdEnv X O z (args c exact pseudo) = .ok s) :
    s.pts = fun i => ![X i, O i] := by
  have hk := (OK.create_keeps h).coords
  obtain ⟨s', h', hp, hv, hn, hsc, han, -⟩ := ok z c exact pseudo
  rw [h] at h'; cases h'
  rw [hsc, han] at hk
  unfold OK.setupCoordinates at hk
  rw [if_pos (by rfl), midrange_X, midrange_O] at hk
  simp only [py_ok_bind, py_pure, Except.ok.injEq, Prod.mk.injEq] at hk
  rw [← hk.2.2.2.2]
  funext i
  simp only [adjustData2, adjust_sc, one_mul]

theorem forgot_update {z : Fin 2 → ℝ} {c : ℝ} {exact pseudo : Bool} {s : OK 2}
    (h : OK.create stdEnv X O z (args c exact pseudo) = .ok s) :
    OK.update stdEnv s forgot = (.error .valueError, { s with
      variogramModel := .name "custom", model := none, variogramFunction := fun _ => .ok fun d => 2 * d, functionName := "f" }) := by
  obtain ⟨s', h', hp, hv, hn, hsc, han, -⟩ := ok z c exact pseudo
  rw [h] at h'; cases h'
  have hct : s.coordinatesType = "euclidean" := (OK.create_fields h).2.2.2.2.1
  obtain ⟨ev, hev⟩ := expVar_ok s.pts s.Z 6
  unfold OK.update forgot
  simp only [OK.resolveModel, makeVariogramParameterList]
  have hc : chooseFunction "custom" (.callable (fun _ => .ok fun d => 2 * d) "f") =
      .ok ((fun _ => .ok fun d => 2 * d), "f") := by simp [chooseFunction]
  rw [hc]
  have hre : ∀ t : OK 2, t.anisotropyScaling = 1 → t.anisotropyAngle = 0 → t.reAniso 1 0 = t := by
    intro t h1 h2
    unfold OK.reAniso
    rw [h1, h2, if_neg (by simp)]
  dsimp only
  have er := hre ({ s with
      variogramModel := .name "custom", model := none, variogramFunction := fun _ => .ok fun d => 2 * d, functionName := "f" } : OK 2)
    hsc han
  rw [er]
  have hi : initializeVariogramModel stdEnv s.pts s.Z "custom" none (fun _ => .ok fun d => 2 * d) 6 false
      s.coordinatesType = .error .valueError := by
    unfold initializeVariogramModel
    rw [hct, hev]
    rfl
  have hi' : initializeVariogramModel stdEnv ({ s with
      variogramModel := .name "custom", model := none, variogramFunction := fun _ => .ok fun d => 2 * d, functionName := "f" } : OK 2).pts
      s.Z "custom" none (fun _ => .ok fun d => 2 * d) 6 false s.coordinatesType = .error .valueError := hi
  rw [hi']

theorem empty_update {z : Fin 2 → ℝ} {c : ℝ} {exact pseudo : Bool} {s : OK 2}
    (h : OK.create stdEnv X O z (args c exact pseudo) = .ok s) :
    OK.update stdEnv s empty = (.error .valueError, { s with
      variogramModel := .name "power", model := none, variogramFunction := powerVariogramModel, functionName := "power_variogram_model" }) := by
  obtain ⟨s', h', hp, hv, hn, hsc, han, -⟩ := ok z c exact pseudo
  rw [h] at h'; cases h'
  have hre : ∀ t : OK 2, t.anisotropyScaling = 1 → t.anisotropyAngle = 0 → t.reAniso 1 0 = t := by
    intro t h1 h2
    unfold OK.reAniso
    rw [h1, h2, if_neg (by simp)]
  unfold OK.update empty
  simp only [OK.resolveModel, makeVariogramParameterList]
  have hc : chooseFunction "power" .none = .ok (powerVariogramModel, "power_variogram_model") := by
    simp [chooseFunction, variogramDict, variogramFunctionName]
  rw [hc]
  dsimp only
  have er := hre ({ s with
      variogramModel := .name "power", model := none, variogramFunction := powerVariogramModel, functionName := "power_variogram_model" } : OK 2)
    hsc han
  rw [er]
  simp

/-- Two data at distance `a`: the variance. -/
theorem variance2 {G : Fin 2 → Fin 2 → ℝ} {a : ℝ} (h0 : G 0 0 = 0) (h1 : G 1 1 = 0) (h2 : G 0 1 = a)
    (h3 : G 1 0 = a) (ha : a ≠ 0) (ps : Bool) (z g : Fin 2 → ℝ) :
    (krigAnswer ps G noF z g 0).2 * (2 * a) = 4 * g 0 * g 1 - (a - g 0 - g 1) ^ 2 := by
  have hreg := regular2 h0 h1 h2 h3 ha
  rw [krigAnswer_of_regular hreg]
  obtain ⟨w, ν, μ, h, e⟩ := krigAnswer_spec hreg z g 0
  rw [e]
  have e0 := h.stationary 0
  have e1 := h.stationary 1
  have e2 := h.unbiased
  simp only [Fin.sum_univ_two, h0, h1, h2, h3, Finset.univ_eq_empty, Finset.sum_empty] at e0 e1 e2
  simp only [krigingVariance, Fin.sum_univ_two, Finset.univ_eq_empty, Finset.sum_empty]
  have hμ : 2 * μ = a - g 0 - g 1 := by linear_combination a * e2 - e0 - e1
  linear_combination 2 * g 0 * e1 + 2 * g 1 * e0 - (a - g 0 - g 1) * hμ

/-- One query at `(2, 0)`, from the object `s` with its data where they should be. -/
theorem run20 {s : OK 2} (hwf : s.Wf) (hct : s.coordinatesType = "euclidean") {k : ℝ} (hk : 0 < k)
    (hγ : s.variogramFunction s.params = .ok fun d => k * d) (hpts : s.pts = fun i => ![X i, O i])
    (hq : s.queryPt (2, 0) = ![2, 0]) : ∃ r, s.execute stdEnv (pts [(2, 0)] "vectorized") = .ok r ∧
      r.ss = [some (2 * k)] := by
  have hD : s.dataDist 0 1 = 1 := by
    unfold OK.dataDist
    rw [if_pos hct, hpts]
    simp [euclid, Fin.sum_univ_two, X, O]
  have hG1 : s.G (fun d => k * d) 0 1 = k := by simp [OK.G, semivar, hD]
  have hG2 : s.G (fun d => k * d) 1 0 = k := by
    have : s.dataDist 1 0 = 1 := (s.dataDist_comm 1 0).trans hD
    simp [OK.G, semivar, this]
  have h00 : s.G (fun d => k * d) 0 0 = 0 := by simp [OK.G, semivar]
  have h11 : s.G (fun d => k * d) 1 1 = 0 := by simp [OK.G, semivar]
  have hreg := regular2 h00 h11 hG1 hG2 hk.ne'
  refine ⟨_, (OK.execute_global_iff hwf _ rfl).2 ⟨by simp [pts], _, _, _, hγ, queryPoints_pts _ _,
    by simp [pts], by simp [pts, OK.backendCheck], Or.inr hreg, rfl⟩, ?_⟩
  have hv := variance2 h00 h11 hG1 hG2 hk.ne' s.pseudoInv s.Z (s.g (fun d => k * d) (2, 0))
  have d0 : s.queryDist (s.queryPt (2, 0)) 0 = 2 := by
    rw [hq]
    unfold OK.queryDist
    rw [if_pos hct, hpts]
    simp [euclid, Fin.sum_univ_two, X, O]
  have d1 : s.queryDist (s.queryPt (2, 0)) 1 = 1 := by
    rw [hq]
    unfold OK.queryDist
    rw [if_pos hct, hpts]
    simp [euclid, Fin.sum_univ_two, X, O]
    norm_num
  have g0 : s.g (fun d => k * d) (2, 0) 0 = 2 * k := by
    unfold OK.g semivarTo
    rw [d0, if_neg (by norm_num)]
    ring
  have g1 : s.g (fun d => k * d) (2, 0) 1 = k := by
    unfold OK.g semivarTo
    rw [d1, if_neg (by norm_num)]
    ring
  rw [g0, g1] at hv
  have hss : (s.answer (fun d => k * d) (2, 0)).2 = 2 * k := by
    unfold OK.answer
    have : 2 * k ≠ 0 := by positivity
    apply mul_right_cancel₀ this
    rw [hv]
    ring
  simp [mkResult, hide, hss]

end Demo

/-- After an `update_variogram_model` that raised, `execute` returns other numbers than before, without complaint:
data at `(0, 0)` and `(1, 0)`, linear variogram of slope 1; the user asks for the custom variogram `2d` and forgets
its parameters.  The variance at `(2, 0)` was 2 and is now 4. -/
theorem C26_wrong_silent : ∃ (s s' : OK 2) (u : OKUpdate) (e : PyErr) (a : ExecArgs) (r r' : ExecResult),
    OK.create stdEnv Demo.X Demo.O Demo.X (Demo.args 0 true false) = .ok s ∧
    OK.update stdEnv s u = (.error e, s') ∧ s.execute stdEnv a = .ok r ∧ s'.execute stdEnv a = .ok r' ∧
    r.ss = [some 2] ∧ r'.ss = [some 4] := by
  obtain ⟨s, h, hp, hv, hn, hsc, han, -⟩ := Demo.ok Demo.X 0 true false
  have hct : s.coordinatesType = "euclidean" := (OK.create_fields h).2.2.2.2.1
  have ha := Demo.admissible (c := 0) (exact := true) (pseudo := false) hn [] "loop"
  have hwf := OK.create_wf h ha.noClash ha.range
  have hpts := Demo.ok_pts h
  have hk := (OK.create_keeps h).coords
  have hq : s.queryPt (2, 0) = ![2, 0] := by
    unfold OK.setupCoordinates at hk
    rw [if_pos (by rfl), Demo.midrange_X, Demo.midrange_O] at hk
    simp only [py_ok_bind, py_pure, Except.ok.injEq, Prod.mk.injEq] at hk
    unfold OK.queryPt
    rw [if_pos hct, ← hk.1, ← hk.2.1, hsc, han, Demo.adjust_sc, one_mul]
  obtain ⟨r, hr, e⟩ := Demo.run20 hwf hct one_pos (by rw [hv, hp, Demo.vario]; simp) hpts hq
  have hwf' : ({ s with
      variogramModel := .name "custom", model := none, variogramFunction := fun _ => .ok fun d => 2 * d, functionName := "f" } : OK 2).Wf := by
    refine ⟨hwf.ptype, hwf.ctype, fun γ γc h1 h2 => ?_⟩
    unfold OK.cVariogram at h2
    simp [cGetVariogramModel] at h2
  obtain ⟨r', hr', e'⟩ := Demo.run20 hwf' hct two_pos rfl hpts hq
  exact ⟨s, _, Demo.forgot, _, _, r, r', h, Demo.forgot_update h, hr, hr', by rw [e]; norm_num, by rw [e']; norm_num⟩

/-- After an `update_variogram_model` that raised, `execute` calls that used to succeed raise: here after an update
to the power model with an empty list of parameters. -/
theorem C26_wrong_raises : ∃ (s s' : OK 2) (u : OKUpdate) (e e' : PyErr) (a : ExecArgs) (r : ExecResult),
    OK.create stdEnv Demo.X Demo.O Demo.X (Demo.args 0 true false) = .ok s ∧
    OK.update stdEnv s u = (.error e, s') ∧ s.execute stdEnv a = .ok r ∧ s'.execute stdEnv a = .error e' := by
  obtain ⟨s, h, hp, hv, hn, hsc, han, -⟩ := Demo.ok Demo.X 0 true false
  obtain ⟨ha, r, hr⟩ := Demo.ok_run le_rfl h [(2, 0)] (b := "vectorized") (.inl rfl)
  have hwf := OK.create_wf h ha.noClash ha.range
  have hbad : powerVariogramModel [1, 0] = .error .indexError := by
    simp [powerVariogramModel, pyGet]
  have hwf' : ({ s with
      variogramModel := .name "power", model := none, variogramFunction := powerVariogramModel, functionName := "power_variogram_model" } : OK 2).Wf := by
    refine ⟨hwf.ptype, hwf.ctype, fun γ γc h1 h2 => ?_⟩
    change powerVariogramModel s.params = .ok γ at h1
    rw [hp, hbad] at h1
    cases h1
  cases hx : ({ s with
      variogramModel := .name "power", model := none, variogramFunction := powerVariogramModel, functionName := "power_variogram_model" } : OK 2).execute stdEnv
      (Demo.pts [(2, 0)] "vectorized") with
  | error e' => exact ⟨s, _, Demo.empty, _, e', _, r, h, Demo.empty_update h, hr, hx⟩
  | ok r' =>
    obtain ⟨-, γ, pts, mask, h1, -⟩ := (OK.execute_global_iff hwf' _ rfl).1 hx
    change powerVariogramModel s.params = .ok γ at h1
    rw [hp, hbad] at h1
    cases h1

/-! ### The hypotheses of the partial theorems are met -/

example : ∃ s : OK 2, OK.create stdEnv Demo.X Demo.O ![3, 5] (Demo.args 1 true false) = .ok s ∧
    ¬ OKModelUsable stdEnv (Demo.args 1 true false).coordinatesType (.name "gausian") .none ∧
    "linear" ∈ builtins ∧ ¬ ParamsWellFormed "linear" (.list [1, 2, 3]) := by
  obtain ⟨s, h, -⟩ := Demo.ok ![3, 5] 1 true false
  exact ⟨s, h, by simp [OKModelUsable, NameUsable, builtins], by simp [builtins], by simp [ParamsWellFormed]⟩

example : ∃ s : UK 2, UK.create stdEnv Demo.X Demo.O ![3, 5] (Demo.uargs 1 true false) = .ok s ∧
    ¬ UKModelUsable stdEnv (.name "custom") .none ∧ ¬ ParamsWellFormed "linear" (.dict fun _ => none) := by
  obtain ⟨s, h, -⟩ := Demo.uk ![3, 5] 1 true false
  exact ⟨s, h, by simp [UKModelUsable, NameUsable, builtins], by simp [ParamsWellFormed]⟩

example : (∃ s : OK3D 2, OK3D.create stdEnv Demo.X Demo.O Demo.O ![3, 5] (Demo.args3 1 true false) = .ok s) ∧
    (∃ s : UK3D 2, UK3D.create stdEnv Demo.X Demo.O Demo.O ![3, 5] (Demo.uargs3 1 true false) = .ok s) ∧
    ¬ ModelUsable3 stdEnv (.name "Linear") .none := by
  obtain ⟨s, h, -⟩ := Demo.ok3 ![3, 5] 1 true false
  obtain ⟨s', h', -⟩ := Demo.uk3 ![3, 5] 1 true false
  exact ⟨⟨s, h⟩, ⟨s', h'⟩, by simp [ModelUsable3, NameUsable, builtins]⟩

end
end PyKrige
