import Verif.Lemmas.Backend
import Verif.Examples.Demo

/-!
# C03: the compiled variograms agree with the Python ones
-/

namespace PyKrige
noncomputable section
open Spec

/-- For each of the five compiled models the compiled function, found under the Python function's name, is
defined on the same parameter lists and returns the same value at every distance; for gaussian, exponential
and spherical the range must not be 0. -/
theorem C03_agree (m : String) (hm : m ∈ compiledModels) (ps : List ℝ)
    (hr : m ∈ ["gaussian", "exponential", "spherical"] → ps[1]? ≠ some 0) :
    ∃ f fc, variogramDict m = some f ∧ cGetVariogramModel (variogramFunctionName m) = .ok fc ∧
      fc ps = f ps := by
  have hf : ∃ f, variogramDict m = some f := by
    simp only [compiledModels, List.mem_cons, List.not_mem_nil, or_false] at hm
    rcases hm with rfl | rfl | rfl | rfl | rfl <;> simp [variogramDict]
  obtain ⟨f, hf⟩ := hf
  have hfc : ∃ fc, cGetVariogramModel (variogramFunctionName m) = .ok fc ∧
      ∀ e, fc ps = .error e ↔ f ps = .error e := by
    simp only [compiledModels, List.mem_cons, List.not_mem_nil, or_false] at hm
    have hget : ∀ i, (∃ v, pyGet ps i = .ok v) ∨ pyGet ps i = .error .indexError := by
      intro i
      unfold pyGet
      cases ps[i]? <;> simp
    rcases hm with rfl | rfl | rfl | rfl | rfl <;> simp [variogramDict] at hf <;> subst hf <;>
      simp only [variogramFunctionName, cGetVariogramModel] <;> simp <;> intro e <;>
      simp only [cLinear, cPower, cGaussian, cExponential, cSpherical, linearVariogramModel,
        powerVariogramModel, gaussianVariogramModel, exponentialVariogramModel, sphericalVariogramModel] <;>
      rcases hget 0 with ⟨v, h0⟩ | h0 <;> rcases hget 1 with ⟨v1, h1⟩ | h1 <;>
      rcases hget 2 with ⟨v2, h2⟩ | h2 <;> simp [h0, h1, h2]
  obtain ⟨fc, hfc, herr⟩ := hfc
  refine ⟨f, fc, hf, hfc, ?_⟩
  cases h1 : f ps with
  | error e => rw [herr]; exact h1
  | ok γ =>
    cases h2 : fc ps with
    | error e => rw [herr, h1] at h2; cases h2
    | ok γc =>
      rw [nameMatches_builtin hf fc ps γ γc hfc ?_ h1 h2]
      intro hn
      apply hr
      simp only [compiledModels, List.mem_cons, List.not_mem_nil, or_false] at hm
      rcases hm with rfl | rfl | rfl | rfl | rfl <;> simp [variogramFunctionName] at hn ⊢

/-- Where the code branches differently: at distance = range both spherical variograms are the sill. -/
theorem C03_spherical_at_range (psill range nugget : ℝ) (hr : range ≠ 0) :
    ∃ γ γc, sphericalVariogramModel [psill, range, nugget] = .ok γ ∧
      cSpherical [psill, range, nugget] = .ok γc ∧ γ range = psill + nugget ∧ γc range = psill + nugget := by
  refine ⟨_, _, rfl, rfl, ?_, by simp⟩
  simp only [sphericalFormula, le_refl, ↓reduceIte]
  field_simp
  ring

theorem cVariogram_error {n : ℕ} {env : Env} {x y z : Fin n → ℝ} {args : OKArgs} {s : OK n}
    (h : OK.create env x y z args = .ok s) (hf : args.variogramFunction.NoClash)
    (hm : ∀ m ∈ compiledModels, args.variogramModel ≠ .name m) : s.cVariogram = .error .notImplementedError := by
  obtain ⟨hp, _, name, _, fArg, pArg, _, _, f, fname, _, _, _, _, _, vp, _, ps, _, -, h1, h2, h2', h3,
    h4, -, rfl⟩ := OK.create_ok h
  obtain ⟨e1, e2⟩ := functionName_mem_iff h2 (OK.resolve_noClash h1 hf)
  obtain ⟨e3, e4⟩ := OK.resolve_name h1
  have : fname ∉ cNames := by
    rw [e1, e3]
    rintro ⟨m, hm', h'⟩
    exact hm m hm' h'
  unfold OK.cVariogram
  dsimp only
  rw [cGet_of_not_mem this]
  rfl

/-- Models without a compiled variogram (hole-effect, custom functions, GSTools models): `backend='C'`
never returns anything, and raises `NotImplementedError` on every request that `backend='loop'` answers. -/
theorem C03_not_compiled {n : ℕ} {env : Env} {x y z : Fin n → ℝ} {args : OKArgs} {s : OK n}
    (h : OK.create env x y z args = .ok s) (hf : args.variogramFunction.NoClash)
    (hm : ∀ m ∈ compiledModels, args.variogramModel ≠ .name m) (hav : env.cAvailable = true)
    (ea : ExecArgs) :
    (∀ r, s.execute env { ea with backend := "C" } ≠ .ok r) ∧
    (∀ r, s.execute env { ea with backend := "loop" } = .ok r →
      s.execute env { ea with backend := "C" } = .error .notImplementedError) := by
  have hc := cVariogram_error h hf hm
  have hct : s.coordinatesType = "euclidean" ∨ s.coordinatesType = "geographic" := by
    obtain ⟨hp, _, name, _, fArg, pArg, _, _, f, fname, _, _, _, _, _, vp, _, ps, _, -, h1, h2, h2', h3,
      h4, -, rfl⟩ := OK.create_ok h
    exact OK.setupCoordinates_ctype h2'
  have hq : ∀ b, queryPoints { ea with backend := b } = queryPoints ea := fun b => rfl
  have ha : ∀ b pts, s.adjustQuery { ea with backend := b } pts = s.adjustQuery ea pts := fun b pts => rfl
  constructor
  · intro r hr
    unfold OK.execute at hr
    by_cases hst : ea.style ∈ ["grid", "masked", "points"]
    swap
    · simp [hst] at hr
    simp only [hst, not_true_eq_false, if_false, hq, ha, hav] at hr
    cases hn : ea.nClosest with
    | none =>
      simp [hn, OK.globalKrige, OK.cExecLoop, hc, py_bind_eq_ok] at hr
    | some k =>
      simp only [hn] at hr
      by_cases hk : k ≤ 1
      · simp [hk] at hr
      · simp only [hk, if_false, py_bind_eq_ok] at hr
        obtain ⟨a, -, pm, -, qs, -, res, hres, -⟩ := hr
        simp [OK.movingWindow, OK.cExecLoopMovingWindow, hc] at hres
        split_ifs at hres
  · intro r hr
    unfold OK.execute at hr ⊢
    by_cases hst : ea.style ∈ ["grid", "masked", "points"]
    swap
    · simp [hst] at hr
    simp only [hst, not_true_eq_false, if_false, hq, ha, hav] at hr ⊢
    cases hn : ea.nClosest with
    | none =>
      simp only [hn, py_bind_eq_ok] at hr
      obtain ⟨a, h1, ⟨pts, mask⟩, h2, qs, h3, -⟩ := hr
      simp [h1, h2, h3, OK.globalKrige, OK.cExecLoop, hc]
    | some k =>
      simp only [hn] at hr ⊢
      by_cases hk : k ≤ 1
      · simp [hk] at hr
      · simp only [hk, if_false, py_bind_eq_ok] at hr ⊢
        obtain ⟨a, h1, ⟨pts, mask⟩, h2, qs, h3, res, hres, -⟩ := hr
        simp only [h1, h2, h3, py_ok_bind]
        simp [OK.movingWindow, OK.cExecLoopMovingWindow, hc] at hres ⊢
        split_ifs at hres ⊢ with g1 g2 g3 <;> simp at hres ⊢

/-- Two data and a custom variogram function. -/
def customArgs : OKArgs :=
  { variogramModel := .name "custom", params := .list []
    variogramFunction := .callable (fun _ => .ok fun d => d) "my_variogram" }

/-- Not vacuous: `'loop'` answers for the custom variogram, so `'C'` raises `NotImplementedError`. -/
example : ∃ s r, OK.create stdEnv Demo.X Demo.O ![3, 5] customArgs = .ok s ∧
    s.execute stdEnv (Demo.pts [(0, 0), (2, 5)] "loop") = .ok r ∧
    s.execute stdEnv (Demo.pts [(0, 0), (2, 5)] "C") = .error .notImplementedError := by
  obtain ⟨ev, h2⟩ := Demo.expVar_ok (adjustData2 Demo.X Demo.O (1 / 2) 0 1 0) ![3, 5] 6
  simp only [one_div] at h2
  have hex : ∃ s, OK.create stdEnv Demo.X Demo.O ![3, 5] customArgs = .ok s ∧ s.params = [] ∧
      s.variogramFunction = (fun _ => .ok fun d => d) ∧ s.functionName = "my_variogram" ∧
      s.anisotropyScaling = 1 ∧ s.anisotropyAngle = 0 := by
    simp [OK.create, customArgs, OK.resolveModel, chooseFunction, OK.setupCoordinates, Demo.midrange_X,
      Demo.midrange_O, makeVariogramParameterList, initializeVariogramModel, h2]
  obtain ⟨s, h, hps, hvf, hfn, hsc, han⟩ := hex
  have hnc : customArgs.variogramFunction.NoClash := by simp [customArgs, FunArg.NoClash, cNames]
  have hγ : s.variogramFunction s.params = .ok fun d => d + 0 := by rw [hvf]; simp
  have ha : Admissible stdEnv customArgs s (Demo.pts [(0, 0), (2, 5)] "loop").nClosest :=
    ⟨stdEnv_knn, hnc, by simp [RangeOk, hfn], by simp [WindowFits, Demo.pts]⟩
  have hpw := OK.create_pw h (ea := Demo.pts [(0, 0), (2, 5)] "loop") ha
  obtain ⟨hpl, hx, hy, -⟩ := OK.create_placed h
  have hf := OK.create_fields h
  have hD : ∀ i j, s.dataDist i j = distance2 "euclidean" 1 0 (Demo.X i, Demo.O i) (Demo.X j, Demo.O j) := by
    intro i j; rw [hpl.dataDist, hx, hy, hsc, han, hf.2.2.2.2.1]; rfl
  have hD0 : s.dataDist 0 1 = 1 := by rw [hD, Demo.dist01]
  have hD1 : s.dataDist 1 0 = 1 := by rw [hD, distance2_comm, Demo.dist01]
  obtain ⟨r, hr⟩ := hpw.ok_iff.2 ⟨⟨by simp [Demo.pts], by simp [Demo.pts], ⟨_, hγ⟩,
    ⟨_, Demo.queryPoints_pts _ _⟩, by simp [Demo.pts], by simp [OK.check, Demo.pts, OK.backendCheck],
    fun _ => .inr (by rw [OK.gam_eq hγ]; exact Demo.regular_demo hD0 hD1 le_rfl)⟩,
    fun j p _ _ k hk => by simp [Demo.pts] at hk⟩
  exact ⟨s, r, h, hr, (C03_not_compiled h hnc (by simp [customArgs, compiledModels]) rfl
    (Demo.pts [(0, 0), (2, 5)] "loop")).2 r hr⟩

example : ∃ f fc, variogramDict "spherical" = some f ∧
    cGetVariogramModel (variogramFunctionName "spherical") = .ok fc ∧ fc [3, 2, 1] = f [3, 2, 1] :=
  C03_agree "spherical" (by simp [compiledModels]) [3, 2, 1] (by simp)

end
end PyKrige
