import Verif.Props.C26

/-! # C46: GSTools models are accepted exactly when supported

What is supported is `Spec.SupportedOK`, `Spec.SupportedUK` and `Spec.Supported3`.  Unsupported models are refused,
supported ones are used: the request is equivalent to one in which the model's variogram is given as custom variogram
function and its anisotropy and angles as the user's.  The two-dimensional classes only refuse GSTools models of dimension exactly 3:
`C46_dimension_four_wrong`. -/

namespace PyKrige
noncomputable section
open Spec

namespace Spec

/-- What geographic or Euclidean ordinary kriging in two dimensions should accept. -/
def SupportedOK (env : Env) (coordinatesType : String) (m : GsModel) : Prop :=
  GsUsable env.gstoolsVersion m ∧ m.fieldDim < 3 ∧ (m.latlon = true → coordinatesType ≠ "euclidean")

/-- What two-dimensional universal kriging should accept. -/
def SupportedUK (env : Env) (m : GsModel) : Prop :=
  GsUsable env.gstoolsVersion m ∧ m.fieldDim < 3 ∧ m.latlon = false

/-- What the 3D classes should accept. -/
def Supported3 (env : Env) (m : GsModel) : Prop := GsUsable env.gstoolsVersion m ∧ 3 ≤ m.fieldDim

end Spec

theorem supported_ok {env : Env} {ct : String} {m : GsModel} {f : FunArg} (hd : m.fieldDim ≤ 3)
    (h : OKModelUsable env ct (.gstools m) f) : SupportedOK env ct m := by
  obtain ⟨h1, h2, h3⟩ := h
  exact ⟨h1, by omega, fun hl hc => h3 ⟨hl, hc⟩⟩

theorem usable_ok {env : Env} {ct : String} {m : GsModel} (h : SupportedOK env ct m) (f : FunArg) :
    OKModelUsable env ct (.gstools m) f :=
  ⟨h.1, by have := h.2.1; omega, fun ⟨hl, hc⟩ => h.2.2 hl hc⟩

theorem supported_uk {env : Env} {m : GsModel} {f : FunArg} (hd : m.fieldDim ≤ 3)
    (h : UKModelUsable env (.gstools m) f) : SupportedUK env m := by
  obtain ⟨h1, h2, h3⟩ := h
  exact ⟨h1, by omega, h3⟩

theorem usable_uk {env : Env} {m : GsModel} (h : SupportedUK env m) (f : FunArg) : UKModelUsable env (.gstools m) f :=
  ⟨h.1, by have := h.2.1; omega, h.2.2⟩

theorem supported_3 {env : Env} {m : GsModel} {f : FunArg} (h : ModelUsable3 env (.gstools m) f) : Supported3 env m := h

theorem usable_3 {env : Env} {m : GsModel} (h : Supported3 env m) (f : FunArg) : ModelUsable3 env (.gstools m) f := h

/-- The same request with the ingredients of the GSTools model spelled out: its variogram as custom variogram function
without parameters, its anisotropy and its angle. -/
def OKArgs.spelledOut (a : OKArgs) (m : GsModel) : OKArgs :=
  { a with
    variogramModel := .name "custom", params := .list [], variogramFunction := .callable (fun _ => .ok m.vario) "pykrige_vario"
    anisotropyScaling := m.anis, anisotropyAngle := m.angle }

/-- The same request with the ingredients of the GSTools model spelled out: its variogram as custom variogram function
without parameters, its anisotropy and its angle. -/
def OKUpdate.spelledOut (a : OKUpdate) (m : GsModel) : OKUpdate :=
  { a with
    variogramModel := .name "custom", params := .list [], variogramFunction := .callable (fun _ => .ok m.vario) "pykrige_vario"
    anisotropyScaling := m.anis, anisotropyAngle := m.angle }

theorem OK.resolve_gstools {env : Env} (ct : String) {m : GsModel} {f : FunArg} (h : OKModelUsable env ct (.gstools m) f) (f' : FunArg)
    (p : ParamArg) (sc an : ℝ) :
    OK.resolveModel env ct (.gstools m) f' p sc an = .ok ("custom", some m, FunArg.callable (fun _ => .ok m.vario) "pykrige_vario", ParamArg.list [], m.anis, m.angle) := by
  have h' : OKModelUsable env ct (.gstools m) f' := h
  obtain ⟨name, model, fArg, pArg, sc', an', r, h1, -⟩ := (OK.resolve_iff env ct (.gstools m) f' p sc an).2 h'
  unfold OK.resolveModel at h1 ⊢
  dsimp only at h1 ⊢
  obtain ⟨⟨⟩, h2, h3⟩ := py_bind_eq_ok.1 h1
  rw [h2, py_ok_bind]
  split_ifs at h3 ⊢ <;> first
    | rfl
    | cases h3

/-- OrdinaryKriging: a usable GSTools model is used as if its ingredients had been given. -/
theorem OK.create_gstools {n : ℕ} {env : Env} {x y z : Fin n → ℝ} {args : OKArgs} {m : GsModel}
    (hm : args.variogramModel = .gstools m) (hu : OKModelUsable env args.coordinatesType (.gstools m) args.variogramFunction) :
    OK.create env x y z args =
      (OK.create env x y z (args.spelledOut m)).map fun s => { s with model := some m } := by
  unfold OK.create
  rw [hm, OK.resolve_gstools _ hu]
  unfold OKArgs.spelledOut
  simp only [OK.resolveModel, py_ok_bind]
  simp only [bind, Except.bind, pure, Except.pure, throw, throwThe, MonadExceptOf.throw, Except.map]
  repeat' split
  all_goals first | rfl | (simp_all; done) | (simp_all; subst_vars; simp)

/-- OrdinaryKriging refuses a GSTools model that is not supported (of dimension up to 3; missing: dimension 4 and more, which the code lets pass, `C46_dimension_four_wrong`). -/
theorem C46_ok_refuses_partial {n : ℕ} {env : Env} (x y z : Fin n → ℝ) {args : OKArgs} {m : GsModel}
    (hm : args.variogramModel = .gstools m) (hd : m.fieldDim ≤ 3) (hu : ¬ SupportedOK env args.coordinatesType m) : ∃ e, OK.create env x y z args = .error e := by
  cases hc : OK.create env x y z args with
  | error e => exact ⟨e, rfl⟩
  | ok s =>
    obtain ⟨hp, exact, name, model, fArg, pArg, sc₀, an₀, f, fname, xc, yc, sc, an, adj, vp, lags, ps, stats, h1, h2, h3, h4, h5, h6, h7, rfl⟩ := OK.create_ok hc
    have h := (OK.resolve_iff env args.coordinatesType args.variogramModel args.variogramFunction args.params args.anisotropyScaling args.anisotropyAngle).1
      ⟨_, _, _, _, _, _, _, h2, h3⟩
    rw [hm] at h
    exact absurd (supported_ok hd h) hu

/-- OrdinaryKriging uses a supported GSTools model: the constructor does what it would do with the model's variogram as custom
variogram and the model's anisotropy and angles instead of the user's (it raises iff that raises; the objects
behave alike in every sequence of calls). -/
theorem C46_ok_uses {n : ℕ} {env : Env} (x y z : Fin n → ℝ) {args : OKArgs} {m : GsModel}
    (hm : args.variogramModel = .gstools m) (hu : SupportedOK env args.coordinatesType m) :
    (∀ e, OK.create env x y z args = .error e ↔ OK.create env x y z (args.spelledOut m) = .error e) ∧
    ∀ s, OK.create env x y z args = .ok s → ∃ t, OK.create env x y z (args.spelledOut m) = .ok t ∧
      ∀ calls, (s.run env calls).1 = (t.run env calls).1 := by
  have e := OK.create_gstools (env := env) (x := x) (y := y) (z := z) hm (usable_ok hu _)
  cases ht : OK.create env x y z (args.spelledOut m) with
  | error e' =>
    rw [ht] at e
    rw [e]
    exact ⟨fun e'' => by simp [Except.map], fun s hs => by simp [Except.map] at hs⟩
  | ok t =>
    rw [ht] at e
    rw [e]
    refine ⟨fun e'' => by simp [Except.map], fun s hs => ⟨t, rfl, fun calls => ?_⟩⟩
    simp only [Except.map, Except.ok.injEq] at hs
    subst hs
    exact OK.SameButName.run env ⟨t.variogramModel, some m, rfl⟩ calls

/-- OrdinaryKriging: `update_variogram_model` with a supported GSTools model does what it does with its ingredients. -/
theorem C46_ok_updates {n : ℕ} {env : Env} (s : OK n) {u : OKUpdate} {m : GsModel}
    (hm : u.variogramModel = .gstools m) (hu : SupportedOK env s.coordinatesType m) :
    (OK.update env s u).1 = (OK.update env s (u.spelledOut m)).1 ∧
    ∀ calls, ((OK.update env s u).2.run env calls).1 = ((OK.update env s (u.spelledOut m)).2.run env calls).1 := by
  have key : (OK.update env s u).1 = (OK.update env s (u.spelledOut m)).1 ∧
      (OK.update env s (u.spelledOut m)).2.SameButName (OK.update env s u).2 := by
    unfold OK.update
    rw [hm]
    dsimp only
    rw [OK.resolve_gstools _ (usable_ok hu u.variogramFunction)]
    unfold OKUpdate.spelledOut
    simp only [OK.resolveModel]
    have hc : chooseFunction "custom" (.callable (fun _ => .ok m.vario) "pykrige_vario") =
      .ok ((fun _ => .ok m.vario), "pykrige_vario") := by simp [chooseFunction]
    rw [hc]
    dsimp only
    have e1 := OK.reAniso_name ({ s with
      variogramModel := .name "custom", model := none, variogramFunction := fun _ => .ok m.vario, functionName := "pykrige_vario" } : OK n)
      (.name "custom") (some m) m.anis m.angle
    dsimp only at e1
    rw [e1]
    clear e1
    generalize e5 : OK.reAniso _ m.anis m.angle = s1
    clear e5
    have hmp : makeVariogramParameterList "custom" (.list []) = .ok (some []) := by simp [makeVariogramParameterList]
    rw [hmp]
    dsimp only
    have e3 : ({ s1 with variogramModel := .name "custom", model := some m } : OK n).pts = s1.pts := rfl
    rw [e3]
    split
    · exact ⟨rfl, .name "custom", some m, rfl⟩
    · next lags ps hi =>
      have e4 : ({ s1 with
          variogramModel := .name "custom", model := some m, lags := lags, params := ps, paramsInt := intParams (.list []) ps u.paramsAllInt } : OK n).pts =
        ({ s1 with lags := lags, params := ps, paramsInt := intParams (.list []) ps u.paramsAllInt } : OK n).pts := rfl
      rw [e4]
      split
      · exact ⟨rfl, .name "custom", some m, rfl⟩
      · exact ⟨rfl, .name "custom", some m, rfl⟩
  exact ⟨key.1, fun calls => key.2.run env calls⟩

/-- The same request with the ingredients of the GSTools model spelled out: its variogram as custom variogram function
without parameters, its anisotropy and its angles. -/
def OK3DArgs.spelledOut (a : OK3DArgs) (m : GsModel) : OK3DArgs :=
  { a with
    variogramModel := .name "custom", params := .list [], variogramFunction := .callable (fun _ => .ok m.vario) "pykrige_vario"
    aniso := ⟨m.anisY, m.anisZ, m.angleX, m.angleY, m.angleZ⟩ }

/-- The same request with the ingredients of the GSTools model spelled out: its variogram as custom variogram function
without parameters, its anisotropy and its angles. -/
def Update3D.spelledOut (a : Update3D) (m : GsModel) : Update3D :=
  { a with
    variogramModel := .name "custom", params := .list [], variogramFunction := .callable (fun _ => .ok m.vario) "pykrige_vario"
    aniso := ⟨m.anisY, m.anisZ, m.angleX, m.angleY, m.angleZ⟩ }

theorem OK3D.resolve_gstools {env : Env} {m : GsModel} {f : FunArg} (h : ModelUsable3 env (.gstools m) f) (f' : FunArg)
    (p : ParamArg) (an : Aniso3) :
    OK3D.resolveModel env (.gstools m) f' p an = .ok ("custom", some m, FunArg.callable (fun _ => .ok m.vario) "pykrige_vario", ParamArg.list [], (⟨m.anisY, m.anisZ, m.angleX, m.angleY, m.angleZ⟩ : Aniso3)) := by
  have h' : ModelUsable3 env (.gstools m) f' := h
  obtain ⟨name, model, fArg, pArg, an', r, h1, -⟩ := (OK3D.resolve_iff env (.gstools m) f' p an).2 h'
  unfold OK3D.resolveModel at h1 ⊢
  dsimp only at h1 ⊢
  obtain ⟨⟨⟩, h2, h3⟩ := py_bind_eq_ok.1 h1
  rw [h2, py_ok_bind]
  split_ifs at h3 ⊢ <;> first
    | rfl
    | cases h3

/-- OrdinaryKriging3D: a usable GSTools model is used as if its ingredients had been given. -/
theorem OK3D.create_gstools {n : ℕ} {env : Env} {x y z v : Fin n → ℝ} {args : OK3DArgs} {m : GsModel}
    (hm : args.variogramModel = .gstools m) (hu : ModelUsable3 env (.gstools m) args.variogramFunction) :
    OK3D.create env x y z v args =
      (OK3D.create env x y z v (args.spelledOut m)).map fun s => { s with model := some m } := by
  unfold OK3D.create
  rw [hm, OK3D.resolve_gstools hu]
  unfold OK3DArgs.spelledOut
  simp only [OK3D.resolveModel, py_ok_bind]
  simp only [bind, Except.bind, pure, Except.pure, throw, throwThe, MonadExceptOf.throw, Except.map]
  repeat' split
  all_goals first | rfl | simp_all

/-- OrdinaryKriging3D refuses a GSTools model that is not supported. -/
theorem C46_ok3d_refuses {n : ℕ} {env : Env} (x y z v : Fin n → ℝ) {args : OK3DArgs} {m : GsModel}
    (hm : args.variogramModel = .gstools m) (hu : ¬ Supported3 env m) : ∃ e, OK3D.create env x y z v args = .error e := by
  cases hc : OK3D.create env x y z v args with
  | error e => exact ⟨e, rfl⟩
  | ok s =>
    obtain ⟨hpt, exact, name, model, fArg, pArg, an, f, fname, xc, yc, zc, vp, lags, ps, stats, h1, h2, h3, hxc, hyc, hzc, h5, h6, h7, rfl⟩ := OK3D.create_ok hc
    have h := (OK3D.resolve_iff env args.variogramModel args.variogramFunction args.params args.aniso).1
      ⟨_, _, _, _, _, _, h2, h3⟩
    rw [hm] at h
    exact absurd (supported_3 h) hu

/-- OrdinaryKriging3D uses a supported GSTools model: the constructor does what it would do with the model's variogram as custom
variogram and the model's anisotropy and angles instead of the user's (it raises iff that raises; the objects
behave alike in every sequence of calls). -/
theorem C46_ok3d_uses {n : ℕ} {env : Env} (x y z v : Fin n → ℝ) {args : OK3DArgs} {m : GsModel}
    (hm : args.variogramModel = .gstools m) (hu : Supported3 env m) :
    (∀ e, OK3D.create env x y z v args = .error e ↔ OK3D.create env x y z v (args.spelledOut m) = .error e) ∧
    ∀ s, OK3D.create env x y z v args = .ok s → ∃ t, OK3D.create env x y z v (args.spelledOut m) = .ok t ∧
      ∀ calls, (s.run env calls).1 = (t.run env calls).1 := by
  have e := OK3D.create_gstools (env := env) (x := x) (y := y) (z := z) (v := v) hm (usable_3 hu _)
  cases ht : OK3D.create env x y z v (args.spelledOut m) with
  | error e' =>
    rw [ht] at e
    rw [e]
    exact ⟨fun e'' => by simp [Except.map], fun s hs => by simp [Except.map] at hs⟩
  | ok t =>
    rw [ht] at e
    rw [e]
    refine ⟨fun e'' => by simp [Except.map], fun s hs => ⟨t, rfl, fun calls => ?_⟩⟩
    simp only [Except.map, Except.ok.injEq] at hs
    subst hs
    exact OK3D.SameButName.run env ⟨t.variogramModel, some m, rfl⟩ calls

/-- OrdinaryKriging3D: `update_variogram_model` with a supported GSTools model does what it does with its ingredients. -/
theorem C46_ok3d_updates {n : ℕ} {env : Env} (s : OK3D n) {u : Update3D} {m : GsModel}
    (hm : u.variogramModel = .gstools m) (hu : Supported3 env m) :
    (OK3D.update env s u).1 = (OK3D.update env s (u.spelledOut m)).1 ∧
    ∀ calls, ((OK3D.update env s u).2.run env calls).1 = ((OK3D.update env s (u.spelledOut m)).2.run env calls).1 := by
  have key : (OK3D.update env s u).1 = (OK3D.update env s (u.spelledOut m)).1 ∧
      (OK3D.update env s (u.spelledOut m)).2.SameButName (OK3D.update env s u).2 := by
    unfold OK3D.update
    rw [hm]
    dsimp only
    rw [OK3D.resolve_gstools (usable_3 hu u.variogramFunction)]
    unfold Update3D.spelledOut
    simp only [OK3D.resolveModel]
    have hc : chooseFunction "custom" (.callable (fun _ => .ok m.vario) "pykrige_vario") =
      .ok ((fun _ => .ok m.vario), "pykrige_vario") := by simp [chooseFunction]
    rw [hc]
    dsimp only
    have e1 := OK3D.reAniso_name ({ s with
      variogramModel := .name "custom", model := none, variogramFunction := fun _ => .ok m.vario, functionName := "pykrige_vario" } : OK3D n)
      (.name "custom") (some m) ⟨m.anisY, m.anisZ, m.angleX, m.angleY, m.angleZ⟩
    dsimp only at e1
    rw [e1]
    clear e1
    generalize e5 : OK3D.reAniso _ _ = s1
    clear e5
    have hmp : makeVariogramParameterList "custom" (.list []) = .ok (some []) := by simp [makeVariogramParameterList]
    rw [hmp]
    dsimp only
    have e3 : ({ s1 with variogramModel := .name "custom", model := some m } : OK3D n).pts = s1.pts := rfl
    rw [e3]
    split
    · exact ⟨rfl, .name "custom", some m, rfl⟩
    · next lags ps hi =>
      have e4 : ({ s1 with
          variogramModel := .name "custom", model := some m, lags := lags, params := ps } : OK3D n).pts =
        ({ s1 with lags := lags, params := ps } : OK3D n).pts := rfl
      rw [e4]
      split
      · exact ⟨rfl, .name "custom", some m, rfl⟩
      · exact ⟨rfl, .name "custom", some m, rfl⟩
  exact ⟨key.1, fun calls => key.2.run env calls⟩

/-- The same request with the ingredients of the GSTools model spelled out: its variogram as custom variogram function
without parameters, its anisotropy and its angle. -/
def UKArgs.spelledOut (a : UKArgs) (m : GsModel) : UKArgs :=
  { a with
    variogramModel := .name "custom", params := .list [], variogramFunction := .callable (fun _ => .ok m.vario) "pykrige_vario"
    anisotropyScaling := m.anis, anisotropyAngle := m.angle }

theorem UK.resolve_gstools {env : Env} {m : GsModel} {f : FunArg} (h : UKModelUsable env (.gstools m) f) (f' : FunArg)
    (p : ParamArg) (sc an : ℝ) :
    UK.resolveModel env (.gstools m) f' p sc an = .ok ("custom", some m, FunArg.callable (fun _ => .ok m.vario) "pykrige_vario", ParamArg.list [], m.anis, m.angle) := by
  have h' : UKModelUsable env (.gstools m) f' := h
  obtain ⟨name, model, fArg, pArg, sc', an', r, h1, -⟩ := (UK.resolve_iff env (.gstools m) f' p sc an).2 h'
  unfold UK.resolveModel at h1 ⊢
  dsimp only at h1 ⊢
  obtain ⟨⟨⟩, h2, h3⟩ := py_bind_eq_ok.1 h1
  rw [h2, py_ok_bind]
  split_ifs at h3 ⊢ <;> first
    | rfl
    | cases h3

/-- UniversalKriging: a usable GSTools model is used as if its ingredients had been given. -/
theorem UK.create_gstools {n : ℕ} {env : Env} {x y z : Fin n → ℝ} {args : UKArgs} {m : GsModel}
    (hm : args.variogramModel = .gstools m) (hu : UKModelUsable env (.gstools m) args.variogramFunction) :
    UK.create env x y z args =
      (UK.create env x y z (args.spelledOut m)).map fun s => { s with model := some m } := by
  unfold UK.create
  rw [hm, UK.resolve_gstools hu]
  have e1 : setupExternalZ x y (args.spelledOut m) = setupExternalZ x y args := rfl
  have e2 : ∀ xc yc sc an, setupPointLog xc yc sc an (args.spelledOut m) = setupPointLog xc yc sc an args :=
    fun _ _ _ _ => rfl
  simp only [e1, e2]
  unfold UKArgs.spelledOut
  simp only [UK.resolveModel, py_ok_bind]
  simp only [bind, Except.bind, pure, Except.pure, throw, throwThe, MonadExceptOf.throw, Except.map]
  repeat' split
  all_goals first | rfl | simp_all

/-- UniversalKriging refuses a GSTools model that is not supported (of dimension up to 3; missing: dimension 4 and more, which the code lets pass, `C46_dimension_four_wrong`). -/
theorem C46_uk_refuses_partial {n : ℕ} {env : Env} (x y z : Fin n → ℝ) {args : UKArgs} {m : GsModel}
    (hm : args.variogramModel = .gstools m) (hd : m.fieldDim ≤ 3) (hu : ¬ SupportedUK env m) : ∃ e, UK.create env x y z args = .error e := by
  cases hc : UK.create env x y z args with
  | error e => exact ⟨e, rfl⟩
  | ok s =>
    obtain ⟨hpt, exact, name, model, fArg, pArg, sc, an, f, fname, xc, yc, vp, lags, ps, stats, ext, plog, spec, func, h1, h2, h3, hxc, hyc, h5, h6, h7, hext, hplog, hspec, hfunc, rfl⟩ := UK.create_ok hc
    have h := (UK.resolve_iff env args.variogramModel args.variogramFunction args.params args.anisotropyScaling args.anisotropyAngle).1
      ⟨_, _, _, _, _, _, _, h2, h3⟩
    rw [hm] at h
    exact absurd (supported_uk hd h) hu

/-- UniversalKriging uses a supported GSTools model: the constructor does what it would do with the model's variogram as custom
variogram and the model's anisotropy and angles instead of the user's (it raises iff that raises; the objects
behave alike in every sequence of calls). -/
theorem C46_uk_uses {n : ℕ} {env : Env} (x y z : Fin n → ℝ) {args : UKArgs} {m : GsModel}
    (hm : args.variogramModel = .gstools m) (hu : SupportedUK env m) :
    (∀ e, UK.create env x y z args = .error e ↔ UK.create env x y z (args.spelledOut m) = .error e) ∧
    ∀ s, UK.create env x y z args = .ok s → ∃ t, UK.create env x y z (args.spelledOut m) = .ok t ∧
      ∀ calls, (s.run env calls).1 = (t.run env calls).1 := by
  have e := UK.create_gstools (env := env) (x := x) (y := y) (z := z) hm (usable_uk hu _)
  cases ht : UK.create env x y z (args.spelledOut m) with
  | error e' =>
    rw [ht] at e
    rw [e]
    exact ⟨fun e'' => by simp [Except.map], fun s hs => by simp [Except.map] at hs⟩
  | ok t =>
    rw [ht] at e
    rw [e]
    refine ⟨fun e'' => by simp [Except.map], fun s hs => ⟨t, rfl, fun calls => ?_⟩⟩
    simp only [Except.map, Except.ok.injEq] at hs
    subst hs
    exact UK.SameButName.run env ⟨t.variogramModel, some m, rfl⟩ calls

/-- UniversalKriging: `update_variogram_model` with a supported GSTools model does what it does with its ingredients. -/
theorem C46_uk_updates {n : ℕ} {env : Env} (s : UK n) {u : OKUpdate} {m : GsModel}
    (hm : u.variogramModel = .gstools m) (hu : SupportedUK env m) :
    (UK.update env s u).1 = (UK.update env s (u.spelledOut m)).1 ∧
    ∀ calls, ((UK.update env s u).2.run env calls).1 = ((UK.update env s (u.spelledOut m)).2.run env calls).1 := by
  have key : (UK.update env s u).1 = (UK.update env s (u.spelledOut m)).1 ∧
      (UK.update env s (u.spelledOut m)).2.SameButName (UK.update env s u).2 := by
    unfold UK.update
    rw [hm]
    dsimp only
    rw [UK.resolve_gstools (usable_uk hu u.variogramFunction)]
    unfold OKUpdate.spelledOut
    simp only [UK.resolveModel]
    have hc : chooseFunction "custom" (.callable (fun _ => .ok m.vario) "pykrige_vario") =
      .ok ((fun _ => .ok m.vario), "pykrige_vario") := by simp [chooseFunction]
    rw [hc]
    dsimp only
    have e1 := UK.reAniso_name ({ s with
      variogramModel := .name "custom", model := none, variogramFunction := fun _ => .ok m.vario, functionName := "pykrige_vario" } : UK n)
      (.name "custom") (some m) m.anis m.angle
    dsimp only at e1
    rw [e1]
    clear e1
    generalize e5 : UK.reAniso _ m.anis m.angle = s1
    clear e5
    have hmp : makeVariogramParameterList "custom" (.list []) = .ok (some []) := by simp [makeVariogramParameterList]
    rw [hmp]
    dsimp only
    have e3 : ({ s1 with variogramModel := .name "custom", model := some m } : UK n).pts = s1.pts := rfl
    rw [e3]
    split
    · exact ⟨rfl, .name "custom", some m, rfl⟩
    · next lags ps hi =>
      have e4 : ({ s1 with
          variogramModel := .name "custom", model := some m, lags := lags, params := ps } : UK n).pts =
        ({ s1 with lags := lags, params := ps } : UK n).pts := rfl
      rw [e4]
      split
      · exact ⟨rfl, .name "custom", some m, rfl⟩
      · exact ⟨rfl, .name "custom", some m, rfl⟩
  exact ⟨key.1, fun calls => key.2.run env calls⟩

/-- The same request with the ingredients of the GSTools model spelled out: its variogram as custom variogram function
without parameters, its anisotropy and its angles. -/
def UK3DArgs.spelledOut (a : UK3DArgs) (m : GsModel) : UK3DArgs :=
  { a with
    variogramModel := .name "custom", params := .list [], variogramFunction := .callable (fun _ => .ok m.vario) "pykrige_vario"
    aniso := ⟨m.anisY, m.anisZ, m.angleX, m.angleY, m.angleZ⟩ }

/-- UniversalKriging3D: a usable GSTools model is used as if its ingredients had been given. -/
theorem UK3D.create_gstools {n : ℕ} {env : Env} {x y z v : Fin n → ℝ} {args : UK3DArgs} {m : GsModel}
    (hm : args.variogramModel = .gstools m) (hu : ModelUsable3 env (.gstools m) args.variogramFunction) :
    UK3D.create env x y z v args =
      (UK3D.create env x y z v (args.spelledOut m)).map fun s => { s with model := some m } := by
  unfold UK3D.create
  rw [hm, OK3D.resolve_gstools hu]
  unfold UK3DArgs.spelledOut
  simp only [OK3D.resolveModel, py_ok_bind]
  simp only [bind, Except.bind, pure, Except.pure, throw, throwThe, MonadExceptOf.throw, Except.map]
  repeat' split
  all_goals first | rfl | simp_all

/-- UniversalKriging3D refuses a GSTools model that is not supported. -/
theorem C46_uk3d_refuses {n : ℕ} {env : Env} (x y z v : Fin n → ℝ) {args : UK3DArgs} {m : GsModel}
    (hm : args.variogramModel = .gstools m) (hu : ¬ Supported3 env m) : ∃ e, UK3D.create env x y z v args = .error e := by
  cases hc : UK3D.create env x y z v args with
  | error e => exact ⟨e, rfl⟩
  | ok s =>
    obtain ⟨hpt, exact, name, model, fArg, pArg, an, f, fname, xc, yc, zc, vp, lags, ps, stats, spec, func, h1, h2, h3, hxc, hyc, hzc, h5, h6, h7, hspec, hfunc, rfl⟩ := UK3D.create_ok hc
    have h := (OK3D.resolve_iff env args.variogramModel args.variogramFunction args.params args.aniso).1
      ⟨_, _, _, _, _, _, h2, h3⟩
    rw [hm] at h
    exact absurd (supported_3 h) hu

/-- UniversalKriging3D uses a supported GSTools model: the constructor does what it would do with the model's variogram as custom
variogram and the model's anisotropy and angles instead of the user's (it raises iff that raises; the objects
behave alike in every sequence of calls). -/
theorem C46_uk3d_uses {n : ℕ} {env : Env} (x y z v : Fin n → ℝ) {args : UK3DArgs} {m : GsModel}
    (hm : args.variogramModel = .gstools m) (hu : Supported3 env m) :
    (∀ e, UK3D.create env x y z v args = .error e ↔ UK3D.create env x y z v (args.spelledOut m) = .error e) ∧
    ∀ s, UK3D.create env x y z v args = .ok s → ∃ t, UK3D.create env x y z v (args.spelledOut m) = .ok t ∧
      ∀ calls, (s.run env calls).1 = (t.run env calls).1 := by
  have e := UK3D.create_gstools (env := env) (x := x) (y := y) (z := z) (v := v) hm (usable_3 hu _)
  cases ht : UK3D.create env x y z v (args.spelledOut m) with
  | error e' =>
    rw [ht] at e
    rw [e]
    exact ⟨fun e'' => by simp [Except.map], fun s hs => by simp [Except.map] at hs⟩
  | ok t =>
    rw [ht] at e
    rw [e]
    refine ⟨fun e'' => by simp [Except.map], fun s hs => ⟨t, rfl, fun calls => ?_⟩⟩
    simp only [Except.map, Except.ok.injEq] at hs
    subst hs
    exact UK3D.SameButName.run env ⟨t.variogramModel, some m, rfl⟩ calls

/-- UniversalKriging3D: `update_variogram_model` with a supported GSTools model does what it does with its ingredients. -/
theorem C46_uk3d_updates {n : ℕ} {env : Env} (s : UK3D n) {u : Update3D} {m : GsModel}
    (hm : u.variogramModel = .gstools m) (hu : Supported3 env m) :
    (UK3D.update env s u).1 = (UK3D.update env s (u.spelledOut m)).1 ∧
    ∀ calls, ((UK3D.update env s u).2.run env calls).1 = ((UK3D.update env s (u.spelledOut m)).2.run env calls).1 := by
  have key : (UK3D.update env s u).1 = (UK3D.update env s (u.spelledOut m)).1 ∧
      (UK3D.update env s (u.spelledOut m)).2.SameButName (UK3D.update env s u).2 := by
    unfold UK3D.update
    rw [hm]
    dsimp only
    rw [OK3D.resolve_gstools (usable_3 hu u.variogramFunction)]
    unfold Update3D.spelledOut
    simp only [OK3D.resolveModel]
    have hc : chooseFunction "custom" (.callable (fun _ => .ok m.vario) "pykrige_vario") =
      .ok ((fun _ => .ok m.vario), "pykrige_vario") := by simp [chooseFunction]
    rw [hc]
    dsimp only
    have e1 := UK3D.reAniso_name ({ s with
      variogramModel := .name "custom", model := none, variogramFunction := fun _ => .ok m.vario, functionName := "pykrige_vario" } : UK3D n)
      (.name "custom") (some m) ⟨m.anisY, m.anisZ, m.angleX, m.angleY, m.angleZ⟩
    dsimp only at e1
    rw [e1]
    clear e1
    generalize e5 : UK3D.reAniso _ _ = s1
    clear e5
    have hmp : makeVariogramParameterList "custom" (.list []) = .ok (some []) := by simp [makeVariogramParameterList]
    rw [hmp]
    dsimp only
    have e3 : ({ s1 with variogramModel := .name "custom", model := some m } : UK3D n).pts = s1.pts := rfl
    rw [e3]
    split
    · exact ⟨rfl, .name "custom", some m, rfl⟩
    · next lags ps hi =>
      have e4 : ({ s1 with
          variogramModel := .name "custom", model := some m, lags := lags, params := ps } : UK3D n).pts =
        ({ s1 with lags := lags, params := ps } : UK3D n).pts := rfl
      rw [e4]
      split
      · exact ⟨rfl, .name "custom", some m, rfl⟩
      · exact ⟨rfl, .name "custom", some m, rfl⟩
  exact ⟨key.1, fun calls => key.2.run env calls⟩

/-! ### Dimension four -/

namespace Demo

/-- GSTools 1.4 is installed; otherwise as `stdEnv`. -/
def gsEnv : Env := { stdEnv with gstoolsVersion := some (1, 4) }

/-- A GSTools model of the given dimension. -/
def gs (dim : ℕ) (latlon : Bool) : GsModel :=
  { isCovModel := true, fieldDim := dim, latlon := latlon, vario := fun d => d, anis := 1, angle := 0
    anisY := 1, anisZ := 1, angleX := 0, angleY := 0, angleZ := 0 }

theorem ok_custom (z : Fin 2 → ℝ) (m : GsModel) (hm : m.anis = 1) (ha : m.angle = 0) : ∃ s,
    OK.create gsEnv X O z (({ variogramModel := .gstools m } : OKArgs).spelledOut m) = .ok s := by
  obtain ⟨ev, h2⟩ := expVar_ok (adjustData2 X O (1 / 2) 0 1 0) z 6
  simp only [one_div] at h2
  simp [OKArgs.spelledOut, OK.create, OK.resolveModel, chooseFunction, OK.setupCoordinates, midrange_X,
    midrange_O, makeVariogramParameterList, initializeVariogramModel, h2, hm, ha]

theorem gs_usable {dim : ℕ} {l : Bool} : GsUsable gsEnv.gstoolsVersion (gs dim l) :=
  ⟨rfl, 1, 4, rfl, by norm_num, fun _ => by norm_num⟩

end Demo

/-- `OrdinaryKriging` is two-dimensional but accepts a four-dimensional GSTools model. -/
theorem C46_dimension_four_wrong : ∃ (m : GsModel) (s : OK 2), m.fieldDim = 4 ∧
    OK.create Demo.gsEnv Demo.X Demo.O Demo.X { variogramModel := .gstools m } = .ok s := by
  obtain ⟨t, ht⟩ := Demo.ok_custom Demo.X (Demo.gs 4 false) rfl rfl
  refine ⟨Demo.gs 4 false, { t with model := some (Demo.gs 4 false) }, rfl, ?_⟩
  rw [OK.create_gstools rfl (by refine ⟨Demo.gs_usable, by decide, ?_⟩; rintro ⟨h, -⟩; cases h), ht]
  rfl

/-! ### The hypotheses are met -/

/-- A model that is refused (too old a GSTools), one that is refused for its dimension, and supported ones. -/
example : ¬ SupportedOK { stdEnv with gstoolsVersion := some (1, 2) } "euclidean" (Demo.gs 2 false) ∧ ¬ SupportedOK Demo.gsEnv "euclidean" (Demo.gs 3 false) ∧
    ¬ SupportedOK Demo.gsEnv "euclidean" (Demo.gs 2 true) ∧ SupportedOK Demo.gsEnv "geographic" (Demo.gs 2 true) ∧
    SupportedUK Demo.gsEnv (Demo.gs 2 false) ∧ ¬ SupportedUK Demo.gsEnv (Demo.gs 2 true) ∧
    Supported3 Demo.gsEnv (Demo.gs 3 false) ∧ ¬ Supported3 Demo.gsEnv (Demo.gs 2 false) := by
  refine ⟨?_, ?_, ?_, ⟨Demo.gs_usable, by decide, fun _ => by decide⟩, ⟨Demo.gs_usable, by decide, rfl⟩, ?_,
    ⟨Demo.gs_usable, le_rfl⟩, ?_⟩
  · rintro ⟨⟨-, a, b, h, h', -⟩, -⟩
    simp only [Option.some.injEq, Prod.mk.injEq] at h
    omega
  · rintro ⟨-, h, -⟩; exact absurd h (by decide)
  · rintro ⟨-, -, h⟩; exact h rfl rfl
  · rintro ⟨-, -, h⟩; cases h
  · rintro ⟨-, h⟩; exact absurd h (by decide)

/-- A supported model with which the constructor succeeds. -/
example : SupportedOK Demo.gsEnv "euclidean" (Demo.gs 2 false) ∧
    ∃ s, OK.create Demo.gsEnv Demo.X Demo.O Demo.X { variogramModel := .gstools (Demo.gs 2 false) } = .ok s := by
  have hs : SupportedOK Demo.gsEnv "euclidean" (Demo.gs 2 false) := ⟨Demo.gs_usable, by decide, fun h => by cases h⟩
  obtain ⟨t, ht⟩ := Demo.ok_custom Demo.X (Demo.gs 2 false) rfl rfl
  refine ⟨hs, { t with model := some (Demo.gs 2 false) }, ?_⟩
  rw [OK.create_gstools rfl (usable_ok hs _), ht]
  rfl

end
end PyKrige
