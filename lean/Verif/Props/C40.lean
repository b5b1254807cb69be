import Verif.Props.C29

/-!
# C40: invalid requests are refused, valid ones are not

`C40_style_*`, `C40_window_*`, `C40_ill_posed_*`, `C40_backend_*`: what `execute` raises, whatever the state of the
object.  `C40_pinv_type_*`, `C40_exact_values_*`, `C40_model_*`, `C40_params_*`, `C40_custom_*`,
`C40_coordinates_type`: what the constructors raise.  `C40_execute_iff_*`, `C40_answers_*`, `C40_create_iff_2d`,
`C40_creates_*`: everything else is answered unless a kriging system is singular.  The vocabulary is in
`Spec/Request.lean` and `Spec/Accept.lean`.
-/

set_option linter.unusedSectionVars false
set_option linter.unusedTactic false
set_option linter.unreachableTactic false

namespace PyKrige
noncomputable section
open Matrix Spec

theorem queryPoints_err {ea : ExecArgs} (h : ¬ WellPosed ea) : queryPoints ea =
    .error (if ea.style = "masked" ∧ ea.mask = none then .ioError else .valueError) := by
  have h' := mt (queryPoints_ok_iff ea).1 h
  push Not at h'
  revert h'
  unfold queryPoints
  dsimp only
  by_cases h1 : ea.style = "masked"
  · simp only [h1]
    cases hm : ea.mask with
    | none => simp
    | some m => simp only [reduceCtorEq, and_false, if_false]; split_ifs <;> simp_all
  · simp only [h1, false_and, if_false]
    split_ifs <;> simp_all

theorem queryPoints3_err {ea : ExecArgs3} (h : ¬ WellPosed3 ea) : queryPoints3 ea =
    .error (if ea.style = "masked" ∧ ea.mask = none then .ioError else .valueError) := by
  have h' := mt (queryPoints3_ok_iff ea).1 h
  push Not at h'
  revert h'
  unfold queryPoints3
  dsimp only
  by_cases h1 : ea.style = "masked"
  · simp only [h1]
    cases hm : ea.mask with
    | none => simp
    | some m =>
      cases m with
      | wrongNdim => simp
      | arr d0 d1 d2 get =>
        simp only [reduceCtorEq, and_false, if_false]
        split_ifs <;> simp_all
  · simp only [h1, false_and, if_false]
    split_ifs <;> simp_all


theorem wellformed_of {n m : ℕ} {env : Env} {X : Fin n → Fin m → ℝ} {z : Fin n → ℝ} {name : String} {fA : FunArg} {pA : ParamArg}
    {f nm vp nlags weight ct r} (h3 : chooseFunction name fA = .ok (f, nm)) (h5 : makeVariogramParameterList name pA = .ok vp)
    (h6 : initializeVariogramModel env X z name vp f nlags weight ct = .ok r) :
    NameUsable name fA ∧ ParamsWellFormed name pA ∧ (name = "custom" → pA ≠ .none) := by
  have hu := (chooseFunction_iff name fA).1 ⟨_, h3⟩
  refine ⟨hu, (makeParams_iff (hu.imp id And.left) pA).1 ⟨_, h5⟩, ?_⟩
  rintro rfl rfl
  cases h5
  obtain ⟨ev, -, h6⟩ := py_bind_eq_ok.1 h6
  cases h6

theorem makeParams_builtin {m : String} (hm : m ∈ builtins) {l : List ℝ} (h : ParamsWellFormed m (.list l)) :
    makeVariogramParameterList m (.list l) = .ok (some (listMeaning m l)) := by
  simp only [builtins, List.mem_cons, List.not_mem_nil, or_false] at hm
  rcases hm with rfl | rfl | rfl | rfl | rfl | rfl
  · match l, h with
    | [a, b], _ => simp [makeVariogramParameterList, listMeaning]
  all_goals
    match l, h with
    | [a, b, c], _ => simp [makeVariogramParameterList, listMeaning, pyGet]

theorem OK.create_wellformed {n : ℕ} {env : Env} {x y z : Fin n → ℝ} {args : OKArgs} {s : OK n}
    (h : OK.create env x y z args = .ok s) {m : String} (hm : args.variogramModel = .name m) :
    NameUsable m args.variogramFunction ∧ ParamsWellFormed m args.params ∧ (m = "custom" → args.params ≠ .none) := by
  obtain ⟨hp, exact, name, model, fArg, pArg, sc₀, an₀, f, fname, xc, yc, sc, an, adj, vp, lags, ps, stats, h1, h2, h3, h4, h5, h6, h7, rfl⟩ := OK.create_ok h
  rw [hm] at h2
  cases h2
  exact wellformed_of h3 h5 h6

theorem OK3D.create_wellformed {n : ℕ} {env : Env} {x y z v : Fin n → ℝ} {args : OK3DArgs} {s : OK3D n}
    (h : OK3D.create env x y z v args = .ok s) {m : String} (hm : args.variogramModel = .name m) :
    NameUsable m args.variogramFunction ∧ ParamsWellFormed m args.params ∧ (m = "custom" → args.params ≠ .none) := by
  obtain ⟨hp, exact, name, model, fArg, pArg, an, f, fname, xc, yc, zc, vp, lags, ps, stats, h1, h2, h3, hx, hy, hz, h5, h6, h7, rfl⟩ := OK3D.create_ok h
  rw [hm] at h2
  cases h2
  exact wellformed_of h3 h5 h6

theorem UK.create_wellformed {n : ℕ} {env : Env} {x y z : Fin n → ℝ} {args : UKArgs} {s : UK n}
    (h : UK.create env x y z args = .ok s) {m : String} (hm : args.variogramModel = .name m) :
    NameUsable m args.variogramFunction ∧ ParamsWellFormed m args.params ∧ (m = "custom" → args.params ≠ .none) := by
  obtain ⟨hp, exact, name, model, fArg, pArg, sc, an, f, fname, xc, yc, vp, lags, ps, stats, ext, plog, spec, func, h1, h2, h3, hx, hy, h5, h6, h7, h8, h9, h10, h11, rfl⟩ := UK.create_ok h
  rw [hm] at h2
  cases h2
  exact wellformed_of h3 h5 h6

theorem UK3D.create_wellformed {n : ℕ} {env : Env} {x y z v : Fin n → ℝ} {args : UK3DArgs} {s : UK3D n}
    (h : UK3D.create env x y z v args = .ok s) {m : String} (hm : args.variogramModel = .name m) :
    NameUsable m args.variogramFunction ∧ ParamsWellFormed m args.params ∧ (m = "custom" → args.params ≠ .none) := by
  obtain ⟨hp, exact, name, model, fArg, pArg, an, f, fname, xc, yc, zc, vp, lags, ps, stats, spec, func, h1, h2, h3, hx, hy, hz, h5, h6, h7, h8, h9, rfl⟩ := UK3D.create_ok h
  rw [hm] at h2
  cases h2
  exact wellformed_of h3 h5 h6

/-! ### OrdinaryKriging -/

/-- `OrdinaryKriging.execute` refuses an unknown style. -/
theorem C40_style_2d {n : ℕ} (env : Env) (s : OK n) {ea : ExecArgs} (h : ea.style ∉ ["grid", "masked", "points"]) :
    s.execute env ea = .error .valueError := by
  unfold OK.execute
  rw [if_pos h]
  rfl

/-- A moving window of at most one point is refused. -/
theorem C40_window_2d {n : ℕ} (env : Env) (s : OK n) {ea : ExecArgs} (hst : ea.style ∈ ["grid", "masked", "points"]) {k : ℤ}
    (hn : ea.nClosest = some k) (hk : k ≤ 1) : s.execute env ea = .error .valueError := by
  unfold OK.execute
  rw [if_neg (not_not.2 hst), hn]
  simp only [if_pos hk]
  rfl

/-- A request whose arguments do not fit together is refused: `IOError` if the mask is missing, otherwise (mask of the
wrong shape, different numbers of coordinates) `ValueError`. -/
theorem C40_ill_posed_2d {n : ℕ} (env : Env) (s : OK n) {ea : ExecArgs} (hst : ea.style ∈ ["grid", "masked", "points"]) (hw : WindowOk ea.nClosest) (hq : ¬ WellPosed ea)
    {γ : ℝ → ℝ} (hγ : s.variogramFunction s.params = .ok γ) :
    s.execute env ea = .error (if ea.style = "masked" ∧ ea.mask = none then .ioError else .valueError) := by
  unfold OK.execute
  rw [if_neg (not_not.2 hst)]
  cases hn : ea.nClosest with
  | none =>
    simp only [OK.getKrigingMatrix_eq, hγ, py_pure, py_ok_bind]
    rw [queryPoints_err hq]; rfl
  | some k =>
    simp only [if_neg (not_le.2 (hw k hn)), OK.getKrigingMatrix_eq, hγ, py_pure, py_ok_bind]
    rw [queryPoints_err hq]; rfl

/-- An unknown backend is refused; with a moving window also "vectorized" is. -/
theorem C40_backend_2d {n : ℕ} (env : Env) (s : OK n) {ea : ExecArgs} (hw : WindowOk ea.nClosest) (hwf : WindowFits n ea.nClosest)
    (hq : WellPosed ea) (hi : s.coordinatesType = "euclidean" → HasFloats ea) {γ : ℝ → ℝ} (hγ : s.variogramFunction s.params = .ok γ)
    (hb : ea.backend ≠ "loop" ∧ ea.backend ≠ "C" ∧ (ea.nClosest = none → ea.backend ≠ "vectorized")) :
    s.execute env ea = .error .valueError := by
  have hst := wellPosed_style hq
  obtain ⟨⟨pts, mask⟩, hq'⟩ := (queryPoints_ok_iff ea).2 hq
  have hqa : ∃ qs, s.adjustQuery ea pts = .ok qs := by
    unfold OK.adjustQuery
    split
    · next hc =>
      split
      · next hc' => exact absurd (by simpa using hc') (hi hc)
      · exact ⟨_, rfl⟩
    · exact ⟨_, rfl⟩
  obtain ⟨qs, hqs⟩ := hqa
  unfold OK.execute
  rw [if_neg (not_not.2 hst)]
  cases hn : ea.nClosest with
  | none =>
    simp only [OK.getKrigingMatrix_eq, hγ, py_pure, py_ok_bind, hq', hqs, hb.2.1, false_and, if_false]
    unfold OK.globalKrige
    simp only [hb.1, hb.2.1, hb.2.2 hn, if_false]
    rfl
  | some k =>
    have hk := hw k hn
    have hk' : k.toNat ≤ n := by have := hwf k hn; omega
    simp only [if_neg (not_le.2 hk), OK.getKrigingMatrix_eq, hγ, py_pure, py_ok_bind, hq', hqs, hb.2.1, false_and, if_false]
    unfold OK.movingWindow
    simp only [hb.1, hb.2.1, if_false, hk', if_true]
    rfl

/-- The constructor refuses an unknown kind of pseudo-inverse. -/
theorem C40_pinv_type_2d {n : ℕ} (env : Env) (x y z : Fin n → ℝ) {args : OKArgs} (h : args.pseudoInvType ∉ ["pinv", "pinvh"]) :
    OK.create env x y z args = .error .valueError := by
  unfold OK.create
  rw [if_pos h]
  rfl

/-- It refuses `exact_values` other than `True` and `False`. -/
theorem C40_exact_values_2d {n : ℕ} (env : Env) (x y z : Fin n → ℝ) {args : OKArgs} (hp : args.pseudoInvType ∈ ["pinv", "pinvh"])
    (h : args.exactValues = .notBool) : OK.create env x y z args = .error .valueError := by
  unfold OK.create
  rw [if_neg (not_not.2 hp), h]
  rfl

/-- It refuses unknown model names, and "custom" without a callable. -/
theorem C40_model_2d {n : ℕ} (env : Env) (x y z : Fin n → ℝ) {args : OKArgs} (hp : args.pseudoInvType ∈ ["pinv", "pinvh"])
    {b : Bool} (hb : args.exactValues = .bool b) {m : String} (hm : args.variogramModel = .name m)
    (h : ¬ NameUsable m args.variogramFunction) : OK.create env x y z args = .error .valueError := by
  unfold OK.create
  rw [if_neg (not_not.2 hp), hb, hm]
  simp only [py_pure, py_ok_bind, OK.resolveModel, chooseFunction_err h]
  rfl

/-- It refuses parameters that do not belong to the model. -/
theorem C40_params_2d {n : ℕ} (env : Env) (x y z : Fin n → ℝ) {args : OKArgs} {m : String} (hm : args.variogramModel = .name m)
    (h : ¬ ParamsWellFormed m args.params) : ∃ e, OK.create env x y z args = .error e := by
  cases hc : OK.create env x y z args with
  | error e => exact ⟨e, rfl⟩
  | ok s =>
    exfalso
    obtain ⟨hu, hw, -⟩ := OK.create_wellformed hc hm
    exact h hw

/-- It refuses "custom" without parameters. -/
theorem C40_custom_2d {n : ℕ} (env : Env) (x y z : Fin n → ℝ) {args : OKArgs} (hm : args.variogramModel = .name "custom")
    (h : args.params = .none) : ∃ e, OK.create env x y z args = .error e := by
  cases hc : OK.create env x y z args with
  | error e => exact ⟨e, rfl⟩
  | ok s => exact absurd h ((OK.create_wellformed hc hm).2.2 rfl)

/-! ### OrdinaryKriging3D -/

/-- `OrdinaryKriging3D.execute` refuses an unknown style. -/
theorem C40_style_3d {n : ℕ} (env : Env) (s : OK3D n) {ea : ExecArgs3} (h : ea.style ∉ ["grid", "masked", "points"]) :
    s.execute env ea = .error .valueError := by
  unfold OK3D.execute
  rw [if_pos h]
  rfl

/-- A request whose arguments do not fit together is refused: `IOError` if the mask is missing, otherwise (mask of the
wrong shape, different numbers of coordinates) `ValueError`. -/
theorem C40_ill_posed_3d {n : ℕ} (env : Env) (s : OK3D n) {ea : ExecArgs3} (hst : ea.style ∈ ["grid", "masked", "points"]) (hq : ¬ WellPosed3 ea)
    {γ : ℝ → ℝ} (hγ : s.variogramFunction s.params = .ok γ) :
    s.execute env ea = .error (if ea.style = "masked" ∧ ea.mask = none then .ioError else .valueError) := by
  unfold OK3D.execute
  rw [if_neg (not_not.2 hst)]
  simp only [OK3D.getKrigingMatrix_eq, hγ, py_pure, py_ok_bind]
  rw [queryPoints3_err hq]; rfl

/-- An unknown backend is refused; with a moving window also "vectorized" is. -/
theorem C40_backend_3d {n : ℕ} (env : Env) (s : OK3D n) {ea : ExecArgs3}
    (hq : WellPosed3 ea) (hi : HasFloats3 ea) {γ : ℝ → ℝ} (hγ : s.variogramFunction s.params = .ok γ)
    (hb : ea.backend ≠ "loop" ∧ (ea.nClosest = none → ea.backend ≠ "vectorized")) :
    s.execute env ea = .error .valueError := by
  have hst := wellPosed_style3 hq
  obtain ⟨⟨pts, mask⟩, hq'⟩ := (queryPoints3_ok_iff ea).2 hq
  have hi' : ¬ (ea.xpoints.isInt && ea.ypoints.isInt && ea.zpoints.isInt) = true := by
    intro hc; exact hi (by simpa [and_assoc] using hc)
  unfold OK3D.execute
  rw [if_neg (not_not.2 hst)]
  simp only [OK3D.getKrigingMatrix_eq, hγ, py_pure, py_ok_bind, hq', OK3D.adjustQuery, if_neg hi']
  cases hn : ea.nClosest with
  | none =>
    unfold OK3D.globalKrige
    simp only [hb.1, hb.2 hn, if_false]
    rfl
  | some k =>
    unfold OK3D.movingWindow
    simp only [hb.1, if_false, ite_self]
    rfl

/-- A moving window of at most one point is refused (by the neighbour search). -/
theorem C40_window_3d {n : ℕ} (env : Env) (s : OK3D n) {ea : ExecArgs3} {k : ℤ} (hn : ea.nClosest = some k) (hk : k ≤ 1) :
    ∃ e, s.execute env ea = .error e := by
  have key : ∀ a qs mask, ∃ e, s.movingWindow env a qs mask ea.backend k = .error e := by
    intro a qs mask
    unfold OK3D.movingWindow
    split
    · exact ⟨_, rfl⟩
    · split
      · rw [if_pos (by omega)]; exact ⟨_, rfl⟩
      · exact ⟨_, rfl⟩
  by_cases hst : ea.style ∈ ["grid", "masked", "points"]
  swap
  · exact ⟨_, C40_style_3d env s hst⟩
  cases hr : s.execute env ea with
  | error e => exact ⟨e, rfl⟩
  | ok r =>
    exfalso
    unfold OK3D.execute at hr
    rw [if_neg (not_not.2 hst)] at hr
    obtain ⟨a, -, hr⟩ := py_bind_eq_ok.1 hr
    obtain ⟨⟨pts, mask⟩, -, hr⟩ := py_bind_eq_ok.1 hr
    obtain ⟨qs, -, hr⟩ := py_bind_eq_ok.1 hr
    rw [hn] at hr
    obtain ⟨res, hm, -⟩ := py_bind_eq_ok.1 hr
    obtain ⟨e, he⟩ := key a qs mask
    rw [he] at hm
    cases hm

/-- The constructor refuses an unknown kind of pseudo-inverse. -/
theorem C40_pinv_type_3d {n : ℕ} (env : Env) (x y z v : Fin n → ℝ) {args : OK3DArgs} (h : args.pseudoInvType ∉ ["pinv", "pinvh"]) :
    OK3D.create env x y z v args = .error .valueError := by
  unfold OK3D.create
  rw [if_pos h]
  rfl

/-- It refuses `exact_values` other than `True` and `False`. -/
theorem C40_exact_values_3d {n : ℕ} (env : Env) (x y z v : Fin n → ℝ) {args : OK3DArgs} (hp : args.pseudoInvType ∈ ["pinv", "pinvh"])
    (h : args.exactValues = .notBool) : OK3D.create env x y z v args = .error .valueError := by
  unfold OK3D.create
  rw [if_neg (not_not.2 hp), h]
  rfl

/-- It refuses unknown model names, and "custom" without a callable. -/
theorem C40_model_3d {n : ℕ} (env : Env) (x y z v : Fin n → ℝ) {args : OK3DArgs} (hp : args.pseudoInvType ∈ ["pinv", "pinvh"])
    {b : Bool} (hb : args.exactValues = .bool b) {m : String} (hm : args.variogramModel = .name m)
    (h : ¬ NameUsable m args.variogramFunction) : OK3D.create env x y z v args = .error .valueError := by
  unfold OK3D.create
  rw [if_neg (not_not.2 hp), hb, hm]
  simp only [py_pure, py_ok_bind, OK3D.resolveModel, chooseFunction_err h]
  rfl

/-- It refuses parameters that do not belong to the model. -/
theorem C40_params_3d {n : ℕ} (env : Env) (x y z v : Fin n → ℝ) {args : OK3DArgs} {m : String} (hm : args.variogramModel = .name m)
    (h : ¬ ParamsWellFormed m args.params) : ∃ e, OK3D.create env x y z v args = .error e := by
  cases hc : OK3D.create env x y z v args with
  | error e => exact ⟨e, rfl⟩
  | ok s =>
    exfalso
    obtain ⟨hu, hw, -⟩ := OK3D.create_wellformed hc hm
    exact h hw

/-- It refuses "custom" without parameters. -/
theorem C40_custom_3d {n : ℕ} (env : Env) (x y z v : Fin n → ℝ) {args : OK3DArgs} (hm : args.variogramModel = .name "custom")
    (h : args.params = .none) : ∃ e, OK3D.create env x y z v args = .error e := by
  cases hc : OK3D.create env x y z v args with
  | error e => exact ⟨e, rfl⟩
  | ok s => exact absurd h ((OK3D.create_wellformed hc hm).2.2 rfl)

/-! ### UniversalKriging -/

/-- `UniversalKriging.execute` refuses an unknown style. -/
theorem C40_style_uk {n : ℕ} (s : UK n) {ea : UKExecArgs} (h : ea.toExec.style ∉ ["grid", "masked", "points"]) :
    s.execute ea = .error .valueError := by
  unfold UK.execute UK.executeW
  rw [if_pos h]
  rfl

/-- A request whose arguments do not fit together is refused: `IOError` if the mask is missing, otherwise (mask of the
wrong shape, different numbers of coordinates) `ValueError`. -/
theorem C40_ill_posed_uk {n : ℕ} (s : UK n) {ea : UKExecArgs} (hst : ea.toExec.style ∈ ["grid", "masked", "points"]) (hq : ¬ WellPosed ea.toExec)
    {γ : ℝ → ℝ} (hγ : s.variogramFunction s.params = .ok γ) :
    s.execute ea = .error (if ea.toExec.style = "masked" ∧ ea.toExec.mask = none then .ioError else .valueError) := by
  unfold UK.execute UK.executeW
  rw [if_neg (not_not.2 hst)]
  simp only [UK.getKrigingMatrix_eq, hγ, py_pure, py_ok_bind]
  rw [queryPoints_err hq]; rfl

/-- An unknown backend is refused. -/
theorem C40_backend_uk {n : ℕ} {env : Env} {x y z : Fin n → ℝ} {args : UKArgs} {s : UK n}
    (h : UK.create env x y z args = .ok s) {ea : UKExecArgs} (hq : WellPosed ea.toExec) (hi : HasFloats ea.toExec)
    (hs : SpecFits args ea) {γ : ℝ → ℝ} (hγ : s.variogramFunction s.params = .ok γ)
    (hb : ea.toExec.backend ≠ "loop" ∧ ea.toExec.backend ≠ "vectorized") : s.execute ea = .error .valueError := by
  have hst := wellPosed_style hq
  obtain ⟨⟨pts, mask⟩, hq'⟩ := (queryPoints_ok_iff _).2 hq
  obtain ⟨g, hg⟩ := UK.specGrids_ok h hst hs
  have hi' : ¬ (ea.toExec.xpoints.isInt && ea.toExec.ypoints.isInt) = true := by
    intro hc; exact hi (by simpa [and_assoc] using hc)
  unfold UK.execute UK.executeW
  rw [if_neg (not_not.2 hst)]
  simp only [UK.getKrigingMatrix_eq, hγ, py_pure, py_ok_bind, hq', hg, if_neg hi', if_neg hb.1, if_neg hb.2]
  rfl

/-- The constructor refuses an unknown kind of pseudo-inverse. -/
theorem C40_pinv_type_uk {n : ℕ} (env : Env) (x y z : Fin n → ℝ) {args : UKArgs} (h : args.pseudoInvType ∉ ["pinv", "pinvh"]) :
    UK.create env x y z args = .error .valueError := by
  unfold UK.create
  rw [if_pos h]
  rfl

/-- It refuses `exact_values` other than `True` and `False`. -/
theorem C40_exact_values_uk {n : ℕ} (env : Env) (x y z : Fin n → ℝ) {args : UKArgs} (hp : args.pseudoInvType ∈ ["pinv", "pinvh"])
    (h : args.exactValues = .notBool) : UK.create env x y z args = .error .valueError := by
  unfold UK.create
  rw [if_neg (not_not.2 hp), h]
  rfl

/-- It refuses unknown model names, and "custom" without a callable. -/
theorem C40_model_uk {n : ℕ} (env : Env) (x y z : Fin n → ℝ) {args : UKArgs} (hp : args.pseudoInvType ∈ ["pinv", "pinvh"])
    {b : Bool} (hb : args.exactValues = .bool b) {m : String} (hm : args.variogramModel = .name m)
    (h : ¬ NameUsable m args.variogramFunction) : UK.create env x y z args = .error .valueError := by
  unfold UK.create
  rw [if_neg (not_not.2 hp), hb, hm]
  simp only [py_pure, py_ok_bind, UK.resolveModel, chooseFunction_err h]
  rfl

/-- It refuses parameters that do not belong to the model. -/
theorem C40_params_uk {n : ℕ} (env : Env) (x y z : Fin n → ℝ) {args : UKArgs} {m : String} (hm : args.variogramModel = .name m)
    (h : ¬ ParamsWellFormed m args.params) : ∃ e, UK.create env x y z args = .error e := by
  cases hc : UK.create env x y z args with
  | error e => exact ⟨e, rfl⟩
  | ok s =>
    exfalso
    obtain ⟨hu, hw, -⟩ := UK.create_wellformed hc hm
    exact h hw

/-- It refuses "custom" without parameters. -/
theorem C40_custom_uk {n : ℕ} (env : Env) (x y z : Fin n → ℝ) {args : UKArgs} (hm : args.variogramModel = .name "custom")
    (h : args.params = .none) : ∃ e, UK.create env x y z args = .error e := by
  cases hc : UK.create env x y z args with
  | error e => exact ⟨e, rfl⟩
  | ok s => exact absurd h ((UK.create_wellformed hc hm).2.2 rfl)

/-! ### UniversalKriging3D -/

/-- `UniversalKriging3D.execute` refuses an unknown style. -/
theorem C40_style_uk3d {n : ℕ} (s : UK3D n) {ea : UK3DExecArgs} (h : ea.toExec.style ∉ ["grid", "masked", "points"]) :
    s.execute ea = .error .valueError := by
  unfold UK3D.execute UK3D.executeW
  rw [if_pos h]
  rfl

/-- A request whose arguments do not fit together is refused: `IOError` if the mask is missing, otherwise (mask of the
wrong shape, different numbers of coordinates) `ValueError`. -/
theorem C40_ill_posed_uk3d {n : ℕ} (s : UK3D n) {ea : UK3DExecArgs} (hst : ea.toExec.style ∈ ["grid", "masked", "points"]) (hq : ¬ WellPosed3 ea.toExec)
    {γ : ℝ → ℝ} (hγ : s.variogramFunction s.params = .ok γ) :
    s.execute ea = .error (if ea.toExec.style = "masked" ∧ ea.toExec.mask = none then .ioError else .valueError) := by
  unfold UK3D.execute UK3D.executeW
  rw [if_neg (not_not.2 hst)]
  simp only [UK3D.getKrigingMatrix_eq, hγ, py_pure, py_ok_bind]
  rw [queryPoints3_err hq]; rfl

/-- An unknown backend is refused. -/
theorem C40_backend_uk3d {n : ℕ} {env : Env} {x y z v : Fin n → ℝ} {args : UK3DArgs} {s : UK3D n}
    (h : UK3D.create env x y z v args = .ok s) {ea : UK3DExecArgs} (hq : WellPosed3 ea.toExec) (hi : HasFloats3 ea.toExec)
    (hs : SpecFits3 args ea) {γ : ℝ → ℝ} (hγ : s.variogramFunction s.params = .ok γ)
    (hb : ea.toExec.backend ≠ "loop" ∧ ea.toExec.backend ≠ "vectorized") : s.execute ea = .error .valueError := by
  have hst := wellPosed_style3 hq
  obtain ⟨⟨pts, mask⟩, hq'⟩ := (queryPoints3_ok_iff _).2 hq
  obtain ⟨g, hg⟩ := UK3D.specGrids_ok h hst hs
  have hi' : ¬ (ea.toExec.xpoints.isInt && ea.toExec.ypoints.isInt && ea.toExec.zpoints.isInt) = true := by
    intro hc; exact hi (by simpa [and_assoc] using hc)
  unfold UK3D.execute UK3D.executeW
  rw [if_neg (not_not.2 hst)]
  simp only [UK3D.getKrigingMatrix_eq, hγ, py_pure, py_ok_bind, hq', hg, if_neg hi', if_neg hb.1, if_neg hb.2]
  rfl

/-- The constructor refuses an unknown kind of pseudo-inverse. -/
theorem C40_pinv_type_uk3d {n : ℕ} (env : Env) (x y z v : Fin n → ℝ) {args : UK3DArgs} (h : args.pseudoInvType ∉ ["pinv", "pinvh"]) :
    UK3D.create env x y z v args = .error .valueError := by
  unfold UK3D.create
  rw [if_pos h]
  rfl

/-- It refuses `exact_values` other than `True` and `False`. -/
theorem C40_exact_values_uk3d {n : ℕ} (env : Env) (x y z v : Fin n → ℝ) {args : UK3DArgs} (hp : args.pseudoInvType ∈ ["pinv", "pinvh"])
    (h : args.exactValues = .notBool) : UK3D.create env x y z v args = .error .valueError := by
  unfold UK3D.create
  rw [if_neg (not_not.2 hp), h]
  rfl

/-- It refuses unknown model names, and "custom" without a callable. -/
theorem C40_model_uk3d {n : ℕ} (env : Env) (x y z v : Fin n → ℝ) {args : UK3DArgs} (hp : args.pseudoInvType ∈ ["pinv", "pinvh"])
    {b : Bool} (hb : args.exactValues = .bool b) {m : String} (hm : args.variogramModel = .name m)
    (h : ¬ NameUsable m args.variogramFunction) : UK3D.create env x y z v args = .error .valueError := by
  unfold UK3D.create
  rw [if_neg (not_not.2 hp), hb, hm]
  simp only [py_pure, py_ok_bind, OK3D.resolveModel, chooseFunction_err h]
  rfl

/-- It refuses parameters that do not belong to the model. -/
theorem C40_params_uk3d {n : ℕ} (env : Env) (x y z v : Fin n → ℝ) {args : UK3DArgs} {m : String} (hm : args.variogramModel = .name m)
    (h : ¬ ParamsWellFormed m args.params) : ∃ e, UK3D.create env x y z v args = .error e := by
  cases hc : UK3D.create env x y z v args with
  | error e => exact ⟨e, rfl⟩
  | ok s =>
    exfalso
    obtain ⟨hu, hw, -⟩ := UK3D.create_wellformed hc hm
    exact h hw

/-- It refuses "custom" without parameters. -/
theorem C40_custom_uk3d {n : ℕ} (env : Env) (x y z v : Fin n → ℝ) {args : UK3DArgs} (hm : args.variogramModel = .name "custom")
    (h : args.params = .none) : ∃ e, UK3D.create env x y z v args = .error e := by
  cases hc : UK3D.create env x y z v args with
  | error e => exact ⟨e, rfl⟩
  | ok s => exact absurd h ((UK3D.create_wellformed hc hm).2.2 rfl)

/-- An unknown coordinate type is refused. -/
theorem C40_coordinates_type {n : ℕ} (env : Env) (x y z : Fin n → ℝ) {args : OKArgs} (hp : args.pseudoInvType ∈ ["pinv", "pinvh"])
    {b : Bool} (hb : args.exactValues = .bool b) (hm : OKModelUsable env args.coordinatesType args.variogramModel args.variogramFunction)
    (h : args.coordinatesType ≠ "euclidean" ∧ args.coordinatesType ≠ "geographic") :
    OK.create env x y z args = .error .valueError := by
  obtain ⟨name, model, fArg, pArg, sc, an, ⟨f, nm⟩, h1, h2⟩ := (OK.resolve_iff env args.coordinatesType args.variogramModel
    args.variogramFunction args.params args.anisotropyScaling args.anisotropyAngle).2 hm
  unfold OK.create
  rw [if_neg (not_not.2 hp), hb]
  simp only [py_pure, py_ok_bind, h1, h2, OK.setupCoordinates, h.1, h.2, if_false]
  rfl

/-- With parameters and without statistics, the `OrdinaryKriging` constructor accepts exactly: at least two data, a known
kind of pseudo-inverse, a boolean `exact_values`, a usable model, a known coordinate type, parameters that belong to the
model. -/
theorem C40_create_iff_2d {n : ℕ} (env : Env) (x y z : Fin n → ℝ) {args : OKArgs} (hs : args.enableStatistics = false)
    (hp : ∀ m, args.variogramModel = .name m → args.params ≠ .none) :
    (∃ s, OK.create env x y z args = .ok s) ↔
      2 ≤ n ∧ args.pseudoInvType ∈ ["pinv", "pinvh"] ∧ (∃ b, args.exactValues = .bool b) ∧
      OKModelUsable env args.coordinatesType args.variogramModel args.variogramFunction ∧
      (args.coordinatesType = "euclidean" ∨ args.coordinatesType = "geographic") ∧
      (∀ m, args.variogramModel = .name m → ParamsWellFormed m args.params) := by
  constructor
  · rintro ⟨s, h⟩
    have h2₀ := OK.create_two_le h
    have hw := fun m hm => (OK.create_wellformed h (m := m) hm).2.1
    obtain ⟨hp₁, exact, name, model, fArg, pArg, sc₀, an₀, f, fname, xc, yc, sc, an, adj, vp, lags, ps, stats, h1, h2, h3, h4, h5, h6, h7, -⟩ := OK.create_ok h
    refine ⟨h2₀, hp₁, ⟨_, h1⟩, (OK.resolve_iff ..).1 ⟨_, _, _, _, _, _, _, h2, h3⟩, ?_, hw⟩
    unfold OK.setupCoordinates at h4
    by_contra hc
    push Not at hc
    simp [hc.1, hc.2] at h4
  · rintro ⟨hn, hpt, ⟨b, hb⟩, hm, hct, hw⟩
    obtain ⟨name, model, fArg, pArg, sc, an, ⟨f, nm⟩, h1, h2⟩ := (OK.resolve_iff env args.coordinatesType args.variogramModel
      args.variogramFunction args.params args.anisotropyScaling args.anisotropyAngle).2 hm
    obtain ⟨ps, hps⟩ : ∃ ps, makeVariogramParameterList name pArg = .ok (some ps) := by
      cases hv : args.variogramModel with
      | name m =>
        rw [hv] at h1
        simp only [OK.resolveModel, Except.ok.injEq, Prod.mk.injEq] at h1
        obtain ⟨rfl, -, -, rfl, -⟩ := h1
        obtain ⟨r, hr⟩ := (makeParams_iff (((chooseFunction_iff _ _).1 ⟨_, h2⟩).imp id And.left) args.params).2 (hw m hv)
        cases r with
        | some ps => exact ⟨ps, hr⟩
        | none =>
          exfalso
          refine hp m hv ?_
          clear * - hr
          unfold makeVariogramParameterList at hr
          cases hp : args.params with
          | none => rfl
          | other => rw [hp] at hr; cases hr
          | dict d => rw [hp] at hr; simp at hr; repeat' split at hr
                      all_goals first | (cases hr; done) | simp at hr
          | list l => rw [hp] at hr; simp at hr; repeat' split at hr
                      all_goals first | (cases hr; done) | (obtain ⟨_, _, hr⟩ := py_bind_eq_ok.1 hr; obtain ⟨_, _, hr⟩ := py_bind_eq_ok.1 hr; obtain ⟨_, _, hr⟩ := py_bind_eq_ok.1 hr; simp at hr) | simp at hr
      | gstools g =>
        rw [hv] at h1
        have hm' := hm
        rw [hv] at hm'
        obtain ⟨hg, hd, hl⟩ := hm'
        simp only [OK.resolveModel, (validateGstools_iff _ _).2 hg, py_ok_bind, if_neg hd, if_neg hl, py_pure, Except.ok.injEq, Prod.mk.injEq] at h1
        obtain ⟨rfl, -, -, rfl, -⟩ := h1
        exact ⟨[], rfl⟩
    obtain ⟨s, hs', -⟩ := OK.create_of hn hpt hb h1 h2 hct hps (z := z) (x := x) (y := y) (env := env) (by
      intro X hX
      obtain ⟨lags, hl⟩ := initialize_of_given (env := env) hn (hct.imp id fun h => ⟨h, rfl⟩) X z hps f args.nlags args.weight
      exact ⟨lags, ps, hl, fun h => by rw [hs] at h; cases h⟩)
    exact ⟨s, hs'⟩

/-- The `OrdinaryKriging` constructor accepts at least two data, a built-in model with its parameters unless a
system met while computing the statistics is singular. -/
theorem C40_creates_2d {n : ℕ} (env : Env) (hn : 2 ≤ n) (x y z : Fin n → ℝ) (args : OKArgs)
    (hpt : args.pseudoInvType ∈ ["pinv", "pinvh"]) {b : Bool} (hex : args.exactValues = .bool b)
    (hct : args.coordinatesType = "euclidean" ∨ args.coordinatesType = "geographic")
    {m : String} (hm : args.variogramModel = .name m) (hmb : m ∈ builtins) {l : List ℝ} (hpa : args.params = .list l)
    (hwf : ParamsWellFormed m (.list l)) {γ : ℝ → ℝ} (hγ : Builtin m (listMeaning m l) γ)
    (hs : args.enableStatistics = true → ∀ i : Fin n, i.val ≠ 0 → Solvable args.pseudoInv (semivar γ fun a b : Fin i.val =>
      okDistance args (x (before i a), y (before i a)) (x (before i b), y (before i b))) noDrift) :
    ∃ s, OK.create env x y z args = .ok s ∧ s.params = listMeaning m l := by
  obtain ⟨f, hf, hfe⟩ := chooseFunction_builtin hγ hmb args.variogramFunction
  obtain ⟨s, hs', -, -, hp⟩ := OK.create_of (env := env) (z := z) hn hpt hex (by rw [hm]; rfl) hf hct
    (hpa ▸ makeParams_builtin hmb hwf) (by
      intro X hX
      obtain ⟨lags, hl⟩ := initialize_of_given (env := env) hn (hct.imp id fun h => ⟨h, rfl⟩) X z (makeParams_builtin hmb hwf) f args.nlags args.weight
      exact ⟨lags, _, hl, fun he => findStatistics_ok (hct.imp id fun h => ⟨h, rfl⟩) hfe (by simpa only [hX] using hs he) z⟩)
  exact ⟨s, hs', hp _ rfl⟩

/-- The `OrdinaryKriging3D` constructor accepts at least two data, a built-in model with its parameters unless a
system met while computing the statistics is singular. -/
theorem C40_creates_3d {n : ℕ} (env : Env) (hn : 2 ≤ n) (x y z v : Fin n → ℝ) (args : OK3DArgs)
    (hpt : args.pseudoInvType ∈ ["pinv", "pinvh"]) {b : Bool} (hex : args.exactValues = .bool b)
    {m : String} (hm : args.variogramModel = .name m) (hmb : m ∈ builtins) {l : List ℝ} (hpa : args.params = .list l)
    (hwf : ParamsWellFormed m (.list l)) {γ : ℝ → ℝ} (hγ : Builtin m (listMeaning m l) γ)
    (hs : ∀ i : Fin n, i.val ≠ 0 → Solvable args.pseudoInv (semivar γ fun a b : Fin i.val =>
      ok3Distance args (x (before i a), y (before i a), z (before i a)) (x (before i b), y (before i b), z (before i b))) noDrift) :
    ∃ s, OK3D.create env x y z v args = .ok s ∧ s.params = listMeaning m l := by
  obtain ⟨f, hf, hfe⟩ := chooseFunction_builtin hγ hmb args.variogramFunction
  obtain ⟨s, hs', -, -, hp⟩ := OK3D.create_of (env := env) (v := v) hn hpt hex (by rw [hm]; rfl) hf 
    (hpa ▸ makeParams_builtin hmb hwf) (by
      intro X hX
      obtain ⟨lags, hl⟩ := initialize_of_given (env := env) hn (.inl rfl) X v (makeParams_builtin hmb hwf) f args.nlags args.weight
      exact ⟨lags, _, hl, fun _ => findStatistics_ok (.inl rfl) hfe (by simpa only [hX] using hs) v⟩)
  exact ⟨s, hs', hp _ rfl⟩

/-- The `UniversalKriging` constructor accepts at least two data, a built-in model with its parameters, and drift terms that come with their values, unless a
system met while computing the statistics is singular. -/
theorem C40_creates_uk {n : ℕ} (env : Env) (hn : 2 ≤ n) (x y z : Fin n → ℝ) (args : UKArgs)
    (hpt : args.pseudoInvType ∈ ["pinv", "pinvh"]) {b : Bool} (hex : args.exactValues = .bool b)
    {m : String} (hm : args.variogramModel = .name m) (hmb : m ∈ builtins) {l : List ℝ} (hpa : args.params = .list l)
    (hwf : ParamsWellFormed m (.list l)) {γ : ℝ → ℝ} (hγ : Builtin m (listMeaning m l) γ)
    (hs : ∀ i : Fin n, i.val ≠ 0 → Solvable args.pseudoInv (semivar γ fun a b : Fin i.val =>
      ukDistance args (x (before i a), y (before i a)) (x (before i b), y (before i b))) noDrift)
    (h1 : ∀ i, ExternalCovers args (x i, y i)) (h2 : "point_log" ∈ args.driftTerms → args.pointDrift ≠ none ∧ args.pointDriftInt = false)
    (h3 : "specified" ∈ args.driftTerms → ∃ l, args.specifiedDrift = .list l ∧ l ≠ [] ∧ ∀ t ∈ l, t.length = n)
    (h4 : "functional" ∈ args.driftTerms → ∃ l, args.functionalDrift = .list l ∧ l ≠ []) :
    ∃ s, UK.create env x y z args = .ok s ∧ s.params = listMeaning m l := by
  obtain ⟨f, hf, hfe⟩ := chooseFunction_builtin hγ hmb args.variogramFunction
  obtain ⟨s, hs', -, -, hp⟩ := UK.create_of (env := env) (z := z) hn hpt hex (by rw [hm]; rfl) hf 
    (hpa ▸ makeParams_builtin hmb hwf) (by
      intro X hX
      obtain ⟨lags, hl⟩ := initialize_of_given (env := env) hn (.inl rfl) X z (makeParams_builtin hmb hwf) f args.nlags args.weight
      exact ⟨lags, _, hl, fun _ => findStatistics_ok (.inl rfl) hfe (by simpa only [hX] using hs) z⟩) (setupExternalZ_ok (by omega) h1) h2 (setupSpecifiedTerm_ok h3) (setupFunctionalTerm_ok h4)
  exact ⟨s, hs', hp _ rfl⟩

/-- The `UniversalKriging3D` constructor accepts at least two data, a built-in model with its parameters, and drift terms that come with their values, unless a
system met while computing the statistics is singular. -/
theorem C40_creates_uk3d {n : ℕ} (env : Env) (hn : 2 ≤ n) (x y z v : Fin n → ℝ) (args : UK3DArgs)
    (hpt : args.pseudoInvType ∈ ["pinv", "pinvh"]) {b : Bool} (hex : args.exactValues = .bool b)
    {m : String} (hm : args.variogramModel = .name m) (hmb : m ∈ builtins) {l : List ℝ} (hpa : args.params = .list l)
    (hwf : ParamsWellFormed m (.list l)) {γ : ℝ → ℝ} (hγ : Builtin m (listMeaning m l) γ)
    (hs : ∀ i : Fin n, i.val ≠ 0 → Solvable args.pseudoInv (semivar γ fun a b : Fin i.val =>
      uk3Distance args (x (before i a), y (before i a), z (before i a)) (x (before i b), y (before i b), z (before i b))) noDrift)
    (h3 : "specified" ∈ args.driftTerms → ∃ l, args.specifiedDrift = .list l ∧ l ≠ [] ∧ ∀ t ∈ l, t.length = n)
    (h4 : "functional" ∈ args.driftTerms → ∃ l, args.functionalDrift = .list l ∧ l ≠ []) :
    ∃ s, UK3D.create env x y z v args = .ok s ∧ s.params = listMeaning m l := by
  obtain ⟨f, hf, hfe⟩ := chooseFunction_builtin hγ hmb args.variogramFunction
  obtain ⟨s, hs', -, -, hp⟩ := UK3D.create_of (env := env) (v := v) hn hpt hex (by rw [hm]; rfl) hf 
    (hpa ▸ makeParams_builtin hmb hwf) (by
      intro X hX
      obtain ⟨lags, hl⟩ := initialize_of_given (env := env) hn (.inl rfl) X v (makeParams_builtin hmb hwf) f args.nlags args.weight
      exact ⟨lags, _, hl, fun _ => findStatistics_ok (.inl rfl) hfe (by simpa only [hX] using hs) v⟩) (setupSpecifiedTerm_ok h3) (setupFunctionalTerm_ok h4)
  exact ⟨s, hs', hp _ rfl⟩

/-- `OrdinaryKriging.execute` answers exactly the well-posed requests with a supported backend whose kriging systems are
not singular. -/
theorem C40_execute_iff_2d {n : ℕ} {env : Env} {x y z : Fin n → ℝ} {args : OKArgs} {s : OK n}
    (h : OK.create env x y z args = .ok s) {ea : ExecArgs} (ha : Admissible env args s ea.nClosest)
    {γ : ℝ → ℝ} (hγ : s.variogramFunction s.params = .ok γ) :
    (∃ r, s.execute env ea = .ok r) ↔
      WellPosed ea ∧ WindowOk ea.nClosest ∧ (args.coordinatesType = "euclidean" → HasFloats ea) ∧
      Supports env args ea.nClosest ea.backend ∧
      (ea.nClosest = none → Solvable args.pseudoInv (semivar γ fun i j => okDistance args (x i, y i) (x j, y j)) noF) ∧
      (∀ k, ea.nClosest = some k → ∀ j p, queryAt ea j = some p → maskedAt ea j = false →
        SelRegular (s.sel env k.toNat p) γ fun i j => okDistance args (x i, y i) (x j, y j)) := by
  obtain ⟨hD, -⟩ := OK.create_dist h
  have hD' : s.dataDist = fun i i' => okDistance args (x i, y i) (x i', y i') := by funext i i'; exact hD i i'
  obtain ⟨-, -, hP, -, hC⟩ := OK.create_fields h
  rw [(OK.create_pw h ha).ok_iff]
  constructor
  · rintro ⟨⟨h1, h2, -, h4, h5, h6, h7⟩, h8⟩
    refine ⟨(queryPoints_ok_iff ea).1 h4, h2, fun hc hi => h5 ⟨hC.1.trans hc, hi⟩, (OK.check_iff h ha.noClash ⟨γ, hγ⟩ ea).1 h6,
      fun hn => ?_, fun k hk j p hj hm => ?_⟩
    · rw [← hP, ← hD', ← OK.gam_eq hγ]; exact h7 hn
    · rw [← hD', ← OK.gam_eq hγ]; exact h8 j p hj hm k hk
  · rintro ⟨hq, hw, hi, hb, hG, hG'⟩
    refine ⟨⟨wellPosed_style hq, hw, ⟨γ, hγ⟩, (queryPoints_ok_iff ea).2 hq, fun hc => hi (hC.1 ▸ hc.1) hc.2,
      (OK.check_iff h ha.noClash ⟨γ, hγ⟩ ea).2 hb, fun hn => ?_⟩, fun j p hj hm k hk => ?_⟩
    · rw [hP, OK.gam_eq hγ, hD']; exact hG hn
    · rw [OK.gam_eq hγ, hD']; exact hG' k hk j p hj hm

/-- `OrdinaryKriging3D.execute` answers exactly the well-posed requests with a known backend whose kriging systems are not
singular. -/
theorem C40_execute_iff_3d {n : ℕ} {env : Env} {x y z v : Fin n → ℝ} {args : OK3DArgs} {s : OK3D n}
    (h : OK3D.create env x y z v args = .ok s) {ea : ExecArgs3} (hk : KnnSpec env) (hwf : WindowFits n ea.nClosest)
    {γ : ℝ → ℝ} (hγ : s.variogramFunction s.params = .ok γ) :
    (∃ r, s.execute env ea = .ok r) ↔
      WellPosed3 ea ∧ WindowOk ea.nClosest ∧ HasFloats3 ea ∧
      (ea.backend = "loop" ∨ (ea.nClosest = none ∧ ea.backend = "vectorized")) ∧
      (ea.nClosest = none → Solvable args.pseudoInv (semivar γ fun i j => ok3Distance args (x i, y i, z i) (x j, y j, z j)) noF) ∧
      (∀ k, ea.nClosest = some k → ∀ j p, queryAt3 ea j = some p → maskedAt3 ea j = false →
        SelRegular (s.sel env k.toNat p) γ fun i j => ok3Distance args (x i, y i, z i) (x j, y j, z j)) := by
  obtain ⟨hD, -⟩ := OK3D.create_dist h
  have hD' : s.dataDist = fun i i' => ok3Distance args (x i, y i, z i) (x i', y i', z i') := by funext i i'; exact hD i i'
  obtain ⟨-, -, hP, -⟩ := OK3D.create_fields h
  rw [(OK3D.create_pw h hk hwf).ok_iff]
  constructor
  · rintro ⟨⟨h1, h2, -, h4, h5, h6, h7⟩, h8⟩
    refine ⟨(queryPoints3_ok_iff ea).1 h4, h2, h5, h6, fun hn => ?_, fun k hk j p hj hm => ?_⟩
    · rw [← hP, ← hD', ← OK3D.gam_eq hγ]; exact h7 hn
    · rw [← hD', ← OK3D.gam_eq hγ]; exact h8 j p hj hm k hk
  · rintro ⟨hq, hw, hi, hb, hG, hG'⟩
    refine ⟨⟨wellPosed_style3 hq, hw, ⟨γ, hγ⟩, (queryPoints3_ok_iff ea).2 hq, hi, hb, fun hn => ?_⟩, fun j p hj hm k hk => ?_⟩
    · rw [hP, OK3D.gam_eq hγ, hD']; exact hG hn
    · rw [OK3D.gam_eq hγ, hD']; exact hG' k hk j p hj hm

/-- Without specified drift, `UniversalKriging.execute` answers exactly the well-posed requests with a known backend, a
kriging system that is not singular, and query points within the external drift grid (for "loop": none at a well, see C43).
-/
theorem C40_execute_iff_uk {n : ℕ} {env : Env} {x y z : Fin n → ℝ} {args : UKArgs} {s : UK n}
    (h : UK.create env x y z args = .ok s) {ea : UKExecArgs} (hs : "specified" ∉ args.driftTerms)
    {γ : ℝ → ℝ} (hγ : s.variogramFunction s.params = .ok γ) :
    (∃ r, s.execute ea = .ok r) ↔
      WellPosed ea.toExec ∧ HasFloats ea.toExec ∧ SpecFits args ea ∧
      (ea.toExec.backend = "vectorized" ∨ ea.toExec.backend = "loop") ∧
      Solvable args.pseudoInv (semivar γ fun i j => ukDistance args (x i, y i) (x j, y j)) s.F ∧
      (∀ j p, queryAt ea.toExec j = some p → maskedAt ea.toExec j = false ∨ ea.toExec.backend = "vectorized" →
        ExternalCovers args p ∧ (ea.toExec.backend = "loop" → ¬ AtWell args s.anisotropyScaling s.anisotropyAngle p)) := by
  obtain ⟨hD, -⟩ := UK.create_dist h
  have hD' : s.dataDist = fun i i' => ukDistance args (x i, y i) (x i', y i') := by funext i i'; exact hD i i'
  obtain ⟨-, -, hP, -⟩ := UK.create_fields h
  rw [(UK.create_pw h ea).ok_iff]
  constructor
  · rintro ⟨⟨h1, -, h4, -, h5, h6, h7⟩, h8⟩
    refine ⟨(queryPoints_ok_iff _).1 h4, by simpa [HasFloats] using h5, fun hc => absurd hc hs, h6, ?_, fun j p hj hm => ?_⟩
    · rw [← hP, ← hD', ← UK.gam_eq hγ]; exact h7
    · obtain ⟨h9, h10⟩ := h8 j p hj hm
      exact ⟨(UK.extP_ok_iff h p).1 h9, fun hl hw => (h10 hl).1 ((UK.atWell_iff h p).2 hw)⟩
  · rintro ⟨hq, hi, hsp, hb, hG, hG'⟩
    refine ⟨⟨wellPosed_style hq, ⟨γ, hγ⟩, (queryPoints_ok_iff _).2 hq, UK.specGrids_ok h (wellPosed_style hq) hsp,
      by simpa [HasFloats] using hi, hb, ?_⟩, fun j p hj hm => ?_⟩
    · rw [hP, UK.gam_eq hγ, hD']; exact hG
    · obtain ⟨h9, h10⟩ := hG' j p hj hm
      exact ⟨(UK.extP_ok_iff h p).2 h9, fun hl => ⟨fun hw => h10 hl ((UK.atWell_iff h p).1 hw), _,
        UK.loopSpec_none (UK.specified_none h hs) _⟩⟩

/-- Without specified drift, `UniversalKriging3D.execute` answers exactly the well-posed requests with a known backend and a
kriging system that is not singular. -/
theorem C40_execute_iff_uk3d {n : ℕ} {env : Env} {x y z v : Fin n → ℝ} {args : UK3DArgs} {s : UK3D n}
    (h : UK3D.create env x y z v args = .ok s) {ea : UK3DExecArgs} (hs : "specified" ∉ args.driftTerms)
    {γ : ℝ → ℝ} (hγ : s.variogramFunction s.params = .ok γ) :
    (∃ r, s.execute ea = .ok r) ↔
      WellPosed3 ea.toExec ∧ HasFloats3 ea.toExec ∧ (ea.toExec.backend = "vectorized" ∨ ea.toExec.backend = "loop") ∧
      Solvable args.pseudoInv (semivar γ fun i j => uk3Distance args (x i, y i, z i) (x j, y j, z j)) s.F := by
  obtain ⟨hD, -⟩ := UK3D.create_dist h
  have hD' : s.dataDist = fun i i' => uk3Distance args (x i, y i, z i) (x i', y i', z i') := by funext i i'; exact hD i i'
  obtain ⟨-, -, hP, -⟩ := UK3D.create_fields h
  rw [(UK3D.create_pw h ea).ok_iff]
  constructor
  · rintro ⟨⟨h1, -, h4, -, h5, h6, h7⟩, h8⟩
    refine ⟨(queryPoints3_ok_iff _).1 h4, by simpa [HasFloats3] using h5, h6, ?_⟩
    rw [← hP, ← hD', ← UK3D.gam_eq hγ]; exact h7
  · rintro ⟨hq, hi, hb, hG⟩
    refine ⟨⟨wellPosed_style3 hq, ⟨γ, hγ⟩, (queryPoints3_ok_iff _).2 hq,
      UK3D.specGrids_ok h (wellPosed_style3 hq) fun hc => absurd hc hs,
      by simpa [HasFloats3] using hi, hb, ?_⟩, fun j p hj hm hl => ⟨_, UK3D.loopSpec_none (UK3D.specified_none h hs) _⟩⟩
    rw [hP, UK3D.gam_eq hγ, hD']; exact hG

/-- With specified drift the "vectorized" backend of `UniversalKriging` answers the well-posed requests. -/
theorem C40_answers_uk {n : ℕ} {env : Env} {x y z : Fin n → ℝ} {args : UKArgs} {s : UK n}
    (h : UK.create env x y z args = .ok s) {ea : UKExecArgs}
    {γ : ℝ → ℝ} (hγ : s.variogramFunction s.params = .ok γ) (hq : WellPosed ea.toExec)
    (hi : HasFloats ea.toExec) (hs : SpecFits args ea) (hb : ea.toExec.backend = "vectorized")
    (he : ∀ j p, queryAt ea.toExec j = some p → ExternalCovers args p)
    (hG : Solvable args.pseudoInv (semivar γ fun i j => ukDistance args (x i, y i) (x j, y j)) s.F) :
    ∃ r, s.execute ea = .ok r :=
  UK.accept h hγ hq hi hs (.inl hb) (fun j p hj _ => he j p hj) hG

/-- With specified drift the "vectorized" backend of `UniversalKriging3D` answers the well-posed requests. -/
theorem C40_answers_uk3d {n : ℕ} {env : Env} {x y z v : Fin n → ℝ} {args : UK3DArgs} {s : UK3D n}
    (h : UK3D.create env x y z v args = .ok s) {ea : UK3DExecArgs}
    {γ : ℝ → ℝ} (hγ : s.variogramFunction s.params = .ok γ) (hq : WellPosed3 ea.toExec)
    (hi : HasFloats3 ea.toExec) (hs : SpecFits3 args ea) (hb : ea.toExec.backend = "vectorized")
    (hG : Solvable args.pseudoInv (semivar γ fun i j => uk3Distance args (x i, y i, z i) (x j, y j, z j)) s.F) :
    ∃ r, s.execute ea = .ok r :=
  UK3D.accept h hγ hq hi hs (.inl hb) hG

/-! ### Examples -/

/-- A request with three x- but two y-coordinates on an object with linear variogram. -/
example (z : Fin 2 → ℝ) (c : ℝ) : ∃ s, OK.create stdEnv Demo.X Demo.O z (Demo.args c true false) = .ok s ∧
    s.execute stdEnv { style := "points", xpoints := ⟨[0, 1, 2], false⟩, ypoints := ⟨[0, 1], false⟩ } = .error .valueError := by
  obtain ⟨s, h, hp, -⟩ := Demo.ok z c true false
  refine ⟨s, h, ?_⟩
  have := C40_ill_posed_2d stdEnv s
    (ea := { style := "points", xpoints := ⟨[0, 1, 2], false⟩, ypoints := ⟨[0, 1], false⟩ }) (by simp) (by simp [WindowOk])
    (by simp [WellPosed]) (γ := linearFormula 1 c)
    (by rw [hp]; exact (chosen_evaluates (builtin_linear.2 rfl) (by simp [builtins]) (OK.create_function h (m := "linear") rfl)).1)
  simpa using this

/-- The same object refuses a masked request without mask with `IOError`, an unknown backend with `ValueError`. -/
example (z : Fin 2 → ℝ) (c : ℝ) : ∃ s, OK.create stdEnv Demo.X Demo.O z (Demo.args c true false) = .ok s ∧
    s.execute stdEnv { style := "masked", xpoints := ⟨[0, 1, 2], false⟩, ypoints := ⟨[0, 1], false⟩ } = .error .ioError ∧
    s.execute stdEnv { style := "grid", xpoints := ⟨[0, 1, 2], false⟩, ypoints := ⟨[0, 1], false⟩, backend := "gpu" } =
      .error .valueError := by
  obtain ⟨s, h, hp, -⟩ := Demo.ok z c true false
  have hγ : s.variogramFunction s.params = .ok (linearFormula 1 c) := by
    rw [hp]; exact (chosen_evaluates (builtin_linear.2 rfl) (by simp [builtins]) (OK.create_function h (m := "linear") rfl)).1
  refine ⟨s, h, ?_, C40_backend_2d stdEnv s (by simp [WindowOk]) (by simp [WindowFits]) (.inl rfl) (by simp [HasFloats]) hγ (by simp)⟩
  have := C40_ill_posed_2d stdEnv s
    (ea := { style := "masked", xpoints := ⟨[0, 1, 2], false⟩, ypoints := ⟨[0, 1], false⟩ }) (by simp) (by simp [WindowOk])
    (by simp [WellPosed]) hγ
  simpa using this

/-- An accepted constructor call: hole-effect model, statistics off, geographic coordinates, any two or more data. -/
example (n : ℕ) (hn : 2 ≤ n) (x y z : Fin n → ℝ) :
    ∃ s, OK.create stdEnv x y z { variogramModel := .name "hole-effect", params := .list [1, 2, 0], coordinatesType := "geographic" } =
      .ok s := by
  refine (C40_create_iff_2d stdEnv x y z rfl (by simp)).2 ⟨hn, by simp, ⟨true, rfl⟩, .inl (by simp [builtins]), .inr rfl, ?_⟩
  intro m hm
  obtain rfl : "hole-effect" = m := by simpa using hm
  simp [ParamsWellFormed]

/-- A refused one: a "Gaussian" model is not known. -/
example (n : ℕ) (x y z : Fin n → ℝ) : OK.create stdEnv x y z { variogramModel := .name "Gaussian" } = .error .valueError :=
  C40_model_2d stdEnv x y z (by simp) rfl rfl (by simp [NameUsable, builtins])

end
end PyKrige
