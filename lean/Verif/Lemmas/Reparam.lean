import Verif.Lemmas.Backend

/-! The same constructor call with another variogram: only the variogram changes. -/

namespace PyKrige
noncomputable section
open Spec

theorem initialize_params {n m : ℕ} {env : Env} {X : Fin n → Fin m → ℝ} {y : Fin n → ℝ}
    {model : String} {vp : Option (List ℝ)} {f : VFun} {nlags : ℕ} {weight : Bool} {ct : String}
    {lags : List (ℝ × ℝ)} {ps : List ℝ}
    (h : initializeVariogramModel env X y model vp f nlags weight ct = .ok (lags, ps))
    {l : List ℝ} (hv : vp = some l) : ps = l := by
  subst hv
  unfold initializeVariogramModel at h
  obtain ⟨ev, h1, h⟩ := py_bind_eq_ok.1 h
  dsimp only at h
  split at h
  · simp at h
  · split at h
    · simp at h
    · simp only [py_pure, Except.ok.injEq, Prod.mk.injEq] at h
      exact h.2.symm

/-- The variogram of a constructed object. -/
structure VariogramOf (m : String) (fA : FunArg) (p : ParamArg) (f : VFun) (fname : String) (ps : List ℝ) :
    Prop where
  choose : chooseFunction m fA = .ok (f, fname)
  params : ∃ vp, makeVariogramParameterList m p = .ok vp ∧ ∀ l, vp = some l → ps = l

theorem VariogramOf.list {m : String} {fA : FunArg} {p : ParamArg} {f : VFun} {fname : String} {ps l : List ℝ}
    (h : VariogramOf m fA p f fname ps) (hl : makeVariogramParameterList m p = .ok (some l)) : ps = l := by
  obtain ⟨vp, h1, h2⟩ := h.params
  rw [hl] at h1
  cases h1
  exact h2 l rfl

theorem OK.create_variogramOf {n : ℕ} {env : Env} {x y z : Fin n → ℝ} {args : OKArgs} {s : OK n}
    (h : OK.create env x y z args = .ok s) {m : String} (hm : args.variogramModel = .name m) :
    VariogramOf m args.variogramFunction args.params s.variogramFunction s.functionName s.params := by
  obtain ⟨hp, exact, name, model, fArg, pArg, sc₀, an₀, f, fname, xc, yc, sc, an, adj, vp, lags, ps, stats,
    h1, h2, h3, h4, h5, h6, h7, rfl⟩ := OK.create_ok h
  rw [hm] at h2
  simp only [OK.resolveModel, Except.ok.injEq, Prod.mk.injEq] at h2
  obtain ⟨rfl, -, rfl, rfl, -⟩ := h2
  exact ⟨h3, vp, h5, fun l hl => initialize_params h6 hl⟩

theorem OK3D.create_variogramOf {n : ℕ} {env : Env} {x y z v : Fin n → ℝ} {args : OK3DArgs} {s : OK3D n}
    (h : OK3D.create env x y z v args = .ok s) {m : String} (hm : args.variogramModel = .name m) :
    VariogramOf m args.variogramFunction args.params s.variogramFunction s.functionName s.params := by
  obtain ⟨hp, exact, name, model, fArg, pArg, an, f, fname, xc, yc, zc, vp, lags, ps, stats,
    h1, h2, h3, h4, h5, h6, h7, h8, h9, rfl⟩ := OK3D.create_ok h
  rw [hm] at h2
  simp only [OK3D.resolveModel, Except.ok.injEq, Prod.mk.injEq] at h2
  obtain ⟨rfl, -, rfl, rfl, -⟩ := h2
  exact ⟨h3, vp, h7, fun l hl => initialize_params h8 hl⟩

theorem UK.create_variogramOf {n : ℕ} {env : Env} {x y z : Fin n → ℝ} {args : UKArgs} {s : UK n}
    (h : UK.create env x y z args = .ok s) {m : String} (hm : args.variogramModel = .name m) :
    VariogramOf m args.variogramFunction args.params s.variogramFunction s.functionName s.params := by
  obtain ⟨hp, exact, name, model, fArg, pArg, sc, an, f, fname, xc, yc, vp, lags, ps, stats, ext, plog, spec,
    func, h1, h2, h3, h4, h5, h6, h7, h8, h9, h10, h11, h12, rfl⟩ := UK.create_ok h
  rw [hm] at h2
  simp only [UK.resolveModel, Except.ok.injEq, Prod.mk.injEq] at h2
  obtain ⟨rfl, -, rfl, rfl, -⟩ := h2
  exact ⟨h3, vp, h6, fun l hl => initialize_params h7 hl⟩

theorem UK3D.create_variogramOf {n : ℕ} {env : Env} {x y z v : Fin n → ℝ} {args : UK3DArgs} {s : UK3D n}
    (h : UK3D.create env x y z v args = .ok s) {m : String} (hm : args.variogramModel = .name m) :
    VariogramOf m args.variogramFunction args.params s.variogramFunction s.functionName s.params := by
  obtain ⟨hp, exact, name, model, fArg, pArg, an, f, fname, xc, yc, zc, vp, lags, ps, stats, spec, func,
    h1, h2, h3, h4, h5, h6, h7, h8, h9, h10, h11, rfl⟩ := UK3D.create_ok h
  rw [hm] at h2
  simp only [OK3D.resolveModel, Except.ok.injEq, Prod.mk.injEq] at h2
  obtain ⟨rfl, -, rfl, rfl, -⟩ := h2
  exact ⟨h3, vp, h7, fun l hl => initialize_params h8 hl⟩

/-! ### Another variogram, everything else the same -/

theorem OK.create_reparam {n : ℕ} {env : Env} {x y z : Fin n → ℝ} {args : OKArgs} {s s' : OK n}
    (h : OK.create env x y z args = .ok s) {m m' : String} {fA : FunArg} {p : ParamArg} {b : Bool}
    (hm : args.variogramModel = .name m)
    (h' : OK.create env x y z { args with
      variogramModel := .name m', variogramFunction := fA, params := p,
      paramsAllInt := b } = .ok s') :
    s' = { s with
      variogramModel := s'.variogramModel, variogramFunction := s'.variogramFunction,
      functionName := s'.functionName, params := s'.params, paramsInt := s'.paramsInt, lags := s'.lags,
      stats := s'.stats } := by
  obtain ⟨hp, exact, name, model, fArg, pArg, sc₀, an₀, f, fname, xc, yc, sc, an, adj, vp, lags, ps, stats,
    h1, h2, h3, h4, h5, h6, h7, rfl⟩ := OK.create_ok h
  obtain ⟨hp', exact', name', model', fArg', pArg', sc₀', an₀', f', fname', xc', yc', sc', an', adj', vp', lags',
    ps', stats', h1', h2', h3', h4', h5', h6', h7', rfl⟩ := OK.create_ok h'
  rw [hm] at h2
  simp only [OK.resolveModel, Except.ok.injEq, Prod.mk.injEq] at h2 h2'
  obtain ⟨rfl, rfl, rfl, rfl, rfl, rfl⟩ := h2
  obtain ⟨rfl, rfl, rfl, rfl, rfl, rfl⟩ := h2'
  dsimp only at h1' h4'
  rw [h4] at h4'
  rw [h1] at h1'
  cases h1'
  cases h4'
  rfl

theorem OK3D.create_reparam {n : ℕ} {env : Env} {x y z v : Fin n → ℝ} {args : OK3DArgs} {s s' : OK3D n}
    (h : OK3D.create env x y z v args = .ok s) {m m' : String} {fA : FunArg} {p : ParamArg}
    (hm : args.variogramModel = .name m)
    (h' : OK3D.create env x y z v { args with variogramModel := .name m', variogramFunction := fA, params := p }
      = .ok s') :
    s' = { s with
      variogramModel := s'.variogramModel, variogramFunction := s'.variogramFunction,
      functionName := s'.functionName, params := s'.params, lags := s'.lags, stats := s'.stats } := by
  obtain ⟨hp, exact, name, model, fArg, pArg, an, f, fname, xc, yc, zc, vp, lags, ps, stats,
    h1, h2, h3, h4, h5, h6, h7, h8, h9, rfl⟩ := OK3D.create_ok h
  obtain ⟨hp', exact', name', model', fArg', pArg', an', f', fname', xc', yc', zc', vp', lags', ps', stats',
    h1', h2', h3', h4', h5', h6', h7', h8', h9', rfl⟩ := OK3D.create_ok h'
  rw [hm] at h2
  simp only [OK3D.resolveModel, Except.ok.injEq, Prod.mk.injEq] at h2 h2'
  obtain ⟨rfl, rfl, rfl, rfl, rfl⟩ := h2
  obtain ⟨rfl, rfl, rfl, rfl, rfl⟩ := h2'
  dsimp only at h1' h4'
  rw [h4] at h4'
  rw [h5] at h5'
  rw [h6] at h6'
  rw [h1] at h1'
  cases h1'
  cases h4'
  cases h5'
  cases h6'
  rfl

theorem UK.create_reparam {n : ℕ} {env : Env} {x y z : Fin n → ℝ} {args : UKArgs} {s s' : UK n}
    (h : UK.create env x y z args = .ok s) {m m' : String} {fA : FunArg} {p : ParamArg}
    (hm : args.variogramModel = .name m)
    (h' : UK.create env x y z { args with variogramModel := .name m', variogramFunction := fA, params := p }
      = .ok s') :
    s' = { s with
      variogramModel := s'.variogramModel, variogramFunction := s'.variogramFunction,
      functionName := s'.functionName, params := s'.params, lags := s'.lags, stats := s'.stats } := by
  obtain ⟨hp, exact, name, model, fArg, pArg, sc, an, f, fname, xc, yc, vp, lags, ps, stats, ext, plog, spec,
    func, h1, h2, h3, h4, h5, h6, h7, h8, h9, h10, h11, h12, rfl⟩ := UK.create_ok h
  obtain ⟨hp', exact', name', model', fArg', pArg', sc', an', f', fname', xc', yc', vp', lags', ps', stats', ext',
    plog', spec', func', h1', h2', h3', h4', h5', h6', h7', h8', h9', h10', h11', h12', rfl⟩ := UK.create_ok h'
  rw [hm] at h2
  simp only [UK.resolveModel, Except.ok.injEq, Prod.mk.injEq] at h2 h2'
  obtain ⟨rfl, rfl, rfl, rfl, rfl, rfl⟩ := h2
  obtain ⟨rfl, rfl, rfl, rfl, rfl, rfl⟩ := h2'
  dsimp only at h1' h11' h12'
  rw [h4] at h4'
  rw [h5] at h5'
  rw [h1] at h1'
  cases h1'
  cases h4'
  cases h5'
  have e9 : setupExternalZ x y args = .ok ext' := h9'
  have e10 : setupPointLog xc yc args.anisotropyScaling args.anisotropyAngle args = .ok plog' := h10'
  rw [h9] at e9
  rw [h10] at e10
  rw [h11] at h11'
  rw [h12] at h12'
  cases e9
  cases e10
  cases h11'
  cases h12'
  rfl

theorem UK3D.create_reparam {n : ℕ} {env : Env} {x y z v : Fin n → ℝ} {args : UK3DArgs} {s s' : UK3D n}
    (h : UK3D.create env x y z v args = .ok s) {m m' : String} {fA : FunArg} {p : ParamArg}
    (hm : args.variogramModel = .name m)
    (h' : UK3D.create env x y z v { args with variogramModel := .name m', variogramFunction := fA, params := p }
      = .ok s') :
    s' = { s with
      variogramModel := s'.variogramModel, variogramFunction := s'.variogramFunction,
      functionName := s'.functionName, params := s'.params, lags := s'.lags, stats := s'.stats } := by
  obtain ⟨hp, exact, name, model, fArg, pArg, an, f, fname, xc, yc, zc, vp, lags, ps, stats, spec, func,
    h1, h2, h3, h4, h5, h6, h7, h8, h9, h10, h11, rfl⟩ := UK3D.create_ok h
  obtain ⟨hp', exact', name', model', fArg', pArg', an', f', fname', xc', yc', zc', vp', lags', ps', stats', spec',
    func', h1', h2', h3', h4', h5', h6', h7', h8', h9', h10', h11', rfl⟩ := UK3D.create_ok h'
  rw [hm] at h2
  simp only [OK3D.resolveModel, Except.ok.injEq, Prod.mk.injEq] at h2 h2'
  obtain ⟨rfl, rfl, rfl, rfl, rfl⟩ := h2
  obtain ⟨rfl, rfl, rfl, rfl, rfl⟩ := h2'
  dsimp only at h1' h10' h11'
  rw [h4] at h4'
  rw [h5] at h5'
  rw [h6] at h6'
  rw [h1] at h1'
  rw [h10] at h10'
  rw [h11] at h11'
  cases h1'
  cases h4'
  cases h5'
  cases h6'
  cases h10'
  cases h11'
  rfl

end
end PyKrige
