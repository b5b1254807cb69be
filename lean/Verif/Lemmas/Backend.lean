import Verif.Lemmas.PWCreate

/-! Which backends `OrdinaryKriging.execute` accepts, in terms of the constructor arguments. -/

namespace PyKrige
noncomputable section
open Spec

/-- The models that have a compiled variogram. -/
def Spec.compiledModels : List String := ["linear", "power", "gaussian", "exponential", "spherical"]

/-- Backend `b` is offered for this object and window size: `'loop'` always, `'vectorized'` without moving
window, `'C'` if the extension is missing (the Python loop is used instead), or if the model is one of
the five compiled ones and its parameters were not all given as integers. -/
def Spec.Supports (env : Env) (args : OKArgs) (nClosest : Option ℤ) (b : String) : Prop :=
  b = "loop" ∨ (b = "vectorized" ∧ nClosest = none) ∨
  (b = "C" ∧ (env.cAvailable = false ∨
    ((∃ m ∈ Spec.compiledModels, args.variogramModel = .name m) ∧
      (args.params = .none ∨ args.paramsAllInt = false))))

theorem cGet_ok_mem {nm : String} {f : VFun} (h : cGetVariogramModel nm = .ok f) : nm ∈ cNames := by
  by_contra hn
  rw [cGet_of_not_mem hn] at h
  cases h

theorem compiled_evaluates {m : String} {f : VFun} (hm : m ∈ Spec.compiledModels)
    (h : variogramDict m = some f) {ps : List ℝ} {γ : ℝ → ℝ} (hγ : f ps = .ok γ) :
    ps ≠ [] ∧ ∃ fc γc, cGetVariogramModel (variogramFunctionName m) = .ok fc ∧ fc ps = .ok γc := by
  simp only [Spec.compiledModels, List.mem_cons, List.not_mem_nil, or_false] at hm
  rcases hm with rfl | rfl | rfl | rfl | rfl <;> simp [variogramDict] at h <;> subst h
  · simp only [linearVariogramModel, py_bind_eq_ok, pyGet_eq_ok] at hγ
    obtain ⟨a, ha, b, hb, -⟩ := hγ
    refine ⟨by rintro rfl; simp at ha, cLinear, fun d => a * d + b, by simp [variogramFunctionName, cGetVariogramModel], ?_⟩
    simp [cLinear, pyGet, ha, hb]
  · simp only [powerVariogramModel, py_bind_eq_ok, pyGet_eq_ok] at hγ
    obtain ⟨a, ha, b, hb, c, hc, -⟩ := hγ
    refine ⟨by rintro rfl; simp at ha, cPower, fun d => a * d ^ b + c, by simp [variogramFunctionName, cGetVariogramModel], ?_⟩
    simp [cPower, pyGet, ha, hb, hc]
  · simp only [gaussianVariogramModel, py_bind_eq_ok, pyGet_eq_ok] at hγ
    obtain ⟨a, ha, b, hb, c, hc, -⟩ := hγ
    refine ⟨by rintro rfl; simp at ha, cGaussian, fun d => a * (1 - Real.exp (-(d / (b * 4 / 7)) ^ 2)) + c, by simp [variogramFunctionName, cGetVariogramModel], ?_⟩
    simp only [cGaussian, pyGet, ha, hb, hc]; rfl
  · simp only [exponentialVariogramModel, py_bind_eq_ok, pyGet_eq_ok] at hγ
    obtain ⟨a, ha, b, hb, c, hc, -⟩ := hγ
    refine ⟨by rintro rfl; simp at ha, cExponential, fun d => a * (1 - Real.exp (-d / (b / 3))) + c, by simp [variogramFunctionName, cGetVariogramModel], ?_⟩
    simp only [cExponential, pyGet, ha, hb, hc]; rfl
  · simp only [sphericalVariogramModel, py_bind_eq_ok, pyGet_eq_ok] at hγ
    obtain ⟨a, ha, b, hb, c, hc, -⟩ := hγ
    refine ⟨by rintro rfl; simp at ha, cSpherical, fun d => if d < b then a * ((3 * d) / (2 * b) - (d ^ 3) / (2 * b ^ 3)) + c else a + c, by simp [variogramFunctionName, cGetVariogramModel], ?_⟩
    simp only [cSpherical, pyGet, ha, hb, hc]; rfl

theorem functionName_mem_iff {name : String} {fArg : FunArg} {f : VFun} {fname : String}
    (h : chooseFunction name fArg = .ok (f, fname)) (hn : fArg.NoClash) :
    (fname ∈ cNames ↔ name ∈ Spec.compiledModels) ∧
    (name ∈ Spec.compiledModels → variogramDict name = some f ∧ fname = variogramFunctionName name) := by
  unfold chooseFunction at h
  split at h
  · simp at h
  next h1 =>
    split at h
    · next h2 =>
      subst h2
      split at h
      · simp only [Except.ok.injEq, Prod.mk.injEq] at h
        obtain ⟨rfl, rfl⟩ := h
        have hn' : _ ∉ cNames := hn
        simp [Spec.compiledModels, hn']
      · simp at h
    · next h2 =>
      split at h
      · next f' hd =>
        simp only [Except.ok.injEq, Prod.mk.injEq] at h
        obtain ⟨rfl, rfl⟩ := h
        refine ⟨?_, fun _ => ⟨hd, rfl⟩⟩
        unfold variogramDict at hd
        split_ifs at hd <;> subst_vars <;> simp [variogramFunctionName, cNames, Spec.compiledModels]
      · simp at h

theorem OK.resolve_name {env : Env} {ct : String} {vm : ModelArg} {f : FunArg} {p : ParamArg}
    {sc an : ℝ} {name model fArg pArg sc' an'}
    (h : OK.resolveModel env ct vm f p sc an = .ok (name, model, fArg, pArg, sc', an')) :
    (name ∈ Spec.compiledModels ↔ ∃ m ∈ Spec.compiledModels, vm = .name m) ∧
    (∀ m, vm = .name m → name = m ∧ pArg = p) := by
  unfold OK.resolveModel at h
  split at h
  · simp only [Except.ok.injEq, Prod.mk.injEq] at h
    obtain ⟨rfl, -, -, rfl, -⟩ := h
    simp
  · simp only [py_bind_eq_ok] at h
    obtain ⟨_, -, h⟩ := h
    split at h
    · simp at h
    · simp only [py_pure] at h
      split at h
      · simp at h
      · simp only [Except.ok.injEq, Prod.mk.injEq] at h
        obtain ⟨rfl, -, -, rfl, -⟩ := h
        simp [Spec.compiledModels]

/-- The compiled variogram is available exactly for the compiled models with non-integer parameters. -/
theorem OK.cVariogram_ok_iff {n : ℕ} {env : Env} {x y z : Fin n → ℝ} {args : OKArgs} {s : OK n}
    (h : OK.create env x y z args = .ok s) (hf : args.variogramFunction.NoClash)
    (hv : ∃ γ, s.variogramFunction s.params = .ok γ) :
    (∃ γc, s.cVariogram = .ok γc) ↔ (∃ m ∈ Spec.compiledModels, args.variogramModel = .name m) ∧
      (args.params = .none ∨ args.paramsAllInt = false) := by
  obtain ⟨hp, _, name, _, fArg, pArg, _, _, f, fname, _, _, _, _, _, vp, _, ps, _, -, h1, h2, h2', h3,
    h4, -, rfl⟩ := OK.create_ok h
  obtain ⟨γ, hγ⟩ := hv
  obtain ⟨e1, e2⟩ := functionName_mem_iff h2 (OK.resolve_noClash h1 hf)
  obtain ⟨e3, e4⟩ := OK.resolve_name h1
  rw [← e3]
  unfold OK.cVariogram
  dsimp only at hγ ⊢
  by_cases hm : name ∈ Spec.compiledModels
  · obtain ⟨m, -, hvm⟩ := e3.1 hm
    obtain ⟨rfl, rfl⟩ := e4 m hvm
    obtain ⟨hd, rfl⟩ := e2 hm
    obtain ⟨hps, fc, γc, h5, h6⟩ := compiled_evaluates hm hd hγ
    simp only [hm, true_and, h5, py_ok_bind]
    have hint : intParams args.params ps args.paramsAllInt = true ↔ ¬ (args.params = .none ∨ args.paramsAllInt = false) := by
      cases hpr : args.params <;> simp [intParams, hps]
    by_cases hi : args.params = .none ∨ args.paramsAllInt = false
    · rw [if_neg (by rw [hint]; exact not_not.2 hi)]
      simp only [hi, iff_true]
      exact ⟨γc, by simpa using h6⟩
    · rw [if_pos (hint.2 hi)]
      simp only [hi, iff_false, not_exists]
      intro γ' h'
      simp at h'
  · have : fname ∉ cNames := fun h => hm (e1.1 h)
    rw [cGet_of_not_mem this]
    simp [hm]

/-- `check` in terms of the constructor arguments. -/
theorem OK.check_iff {n : ℕ} {env : Env} {x y z : Fin n → ℝ} {args : OKArgs} {s : OK n}
    (h : OK.create env x y z args = .ok s) (hf : args.variogramFunction.NoClash)
    (hv : ∃ γ, s.variogramFunction s.params = .ok γ) (ea : ExecArgs) :
    s.check env ea = .ok () ↔ Spec.Supports env args ea.nClosest ea.backend := by
  have hc := OK.cVariogram_ok_iff h hf hv
  have hC : (do let _ ← s.cVariogram; return () : Py Unit) = .ok () ↔ ∃ γc, s.cVariogram = .ok γc := by
    cases s.cVariogram <;> simp
  unfold OK.check Spec.Supports
  cases hn : ea.nClosest with
  | none =>
    simp only [OK.backendCheck]
    split
    · next h' => rcases h' with h' | h' <;> simp [h']
    · next h' =>
      push Not at h'
      split
      · next hb =>
        simp only [hb]
        cases hav : env.cAvailable with
        | true => simp only [↓reduceIte]; rw [hC, hc]; simp
        | false => simp
      · next hb => simp [h', hb]
  | some k =>
    simp only [OK.windowCheck]
    split
    · next h' => simp [h']
    · next h' =>
      split
      · next hb =>
        simp only [hb]
        cases hav : env.cAvailable with
        | true => simp only [↓reduceIte]; rw [hC, hc]; simp
        | false => simp
      · next hb => simp [h', hb]

end
end PyKrige
