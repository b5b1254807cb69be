import Verif.Lemmas.FitUnit
import Verif.Lemmas.ArgDist
import Verif.Lemmas.Update
import Verif.Props.C53
import Verif.Examples.More

/-!
# C76: the automatic fit

`variogram_parameters=None` and a built-in model: the constructor fits the parameters to the experimental variogram
`(self.lags, self.semivariance)`. `LsqOptimal env`: `scipy.optimize.least_squares` finds best parameters if there are any.
-/

set_option linter.unusedSectionVars false

namespace PyKrige
noncomputable section
open Spec

theorem choose_builtin {nm : String} {fA : FunArg} {f : VFun} {fname : String} (h : chooseFunction nm fA = .ok (f, fname)) (hc : nm ≠ "custom") :
    variogramDict nm = some f := by
  unfold chooseFunction at h
  split at h
  · cases h
  · split at h
    · cases h; assumption
    · cases h

theorem intParams_none (ps : List ℝ) (b : Bool) : intParams .none ps b = false := rfl

theorem builtin_names {nm : String} {f : VFun} (h : variogramDict nm = some f) :
    nm = "linear" ∨ nm = "power" ∨ nm = "gaussian" ∨ nm = "spherical" ∨ nm = "exponential" ∨ nm = "hole-effect" := by
  unfold variogramDict at h
  split_ifs at h <;> simp_all

/-- The fitted parameters, written as an argument, are read back as the same parameters. -/
theorem read_back {nm : String} {f : VFun} (h : variogramDict nm = some f) {S L : ℝ} {ps : List ℝ} (hw : WithinBounds nm S L ps) :
    makeVariogramParameterList nm (.list (asArgument nm ps)) = .ok (some ps) ∧ (nm = "linear" → ps.length = 2) ∧
      (nm ≠ "linear" → ps.length = 3) := by
  unfold WithinBounds at hw
  rcases builtin_names h with rfl | rfl | rfl | rfl | rfl | rfl
  · rw [if_pos rfl] at hw
    obtain ⟨a, b, rfl, -⟩ := hw
    exact ⟨rfl, by simp⟩
  · rw [if_neg (by decide), if_pos rfl] at hw
    obtain ⟨a, b, n, rfl, -⟩ := hw
    exact ⟨rfl, by simp⟩
  all_goals
    rw [if_neg (by decide), if_neg (by decide)] at hw
    obtain ⟨a, b, n, rfl, -⟩ := hw
    refine ⟨?_, by simp⟩
    simp [makeVariogramParameterList, asArgument, pyGet]

theorem init_given {env : Env} {n m : ℕ} {X : Fin n → Fin m → ℝ} {y : Fin n → ℝ} {nm : String} {f : VFun} {nlags : ℕ} {weight : Bool} {ct : String}
    {ev : List (ℝ × ℝ)} {ps : List ℝ} (h : experimentalVariogram X y nlags ct = .ok ev) (h2 : nm = "linear" → ps.length = 2)
    (h3 : nm ≠ "linear" → ps.length = 3) : initializeVariogramModel env X y nm (some ps) f nlags weight ct = .ok (ev, ps) := by
  unfold initializeVariogramModel
  rw [h]
  simp only [py_ok_bind, py_pure]
  rw [if_neg (by rintro ⟨a, b⟩; exact b (h2 a))]
  rw [if_neg]
  rintro ⟨a, b⟩
  refine b (h3 ?_)
  rintro rfl
  simp at a

/-- The models with a sill read the first number of a list as the full sill. -/
theorem read_raw {nm : String} {f : VFun} (h : variogramDict nm = some f) (h1 : nm ≠ "linear") (h2 : nm ≠ "power") {S L : ℝ} {ps : List ℝ}
    (hw : WithinBounds nm S L ps) : ∃ psill range nugget, ps = [psill, range, nugget] ∧
      makeVariogramParameterList nm (.list ps) = .ok (some [psill - nugget, range, nugget]) := by
  unfold WithinBounds at hw
  rw [if_neg h1, if_neg h2] at hw
  obtain ⟨a, b, n, rfl, -⟩ := hw
  refine ⟨a, b, n, rfl, ?_⟩
  rcases builtin_names h with rfl | rfl | rfl | rfl | rfl | rfl
  · exact absurd rfl h1
  · exact absurd rfl h2
  all_goals simp [makeVariogramParameterList, pyGet]

/-- The fitted parameters in another unit, as arguments. -/
theorem otherUnit_argument {nm : String} {f : VFun} (h : variogramDict nm = some f) (c : ℝ) (fA : FunArg) {S L : ℝ} {ps : List ℝ}
    (hw : WithinBounds nm S L ps) : OtherUnit c nm (fA, asArgument nm ps) (fA, asArgument nm (inUnit c nm ps)) := by
  unfold WithinBounds at hw
  rcases builtin_names h with rfl | rfl | rfl | rfl | rfl | rfl
  · rw [if_pos rfl] at hw
    obtain ⟨a, b, rfl, -⟩ := hw
    exact .linear fA a b
  · rw [if_neg (by decide), if_pos rfl] at hw
    obtain ⟨a, b, n, rfl, -⟩ := hw
    exact .power fA a b n
  all_goals
    rw [if_neg (by decide), if_neg (by decide)] at hw
    obtain ⟨a, b, n, rfl, -⟩ := hw
    have hA : ∀ m, m ∈ ["gaussian", "exponential", "spherical", "hole-effect"] → m ≠ "power" →
        OtherUnit c m (fA, asArgument m [a, b, n]) (fA, asArgument m (inUnit c m [a, b, n])) := by
      intro m hm hp
      have := OtherUnit.range (c := c) m hm fA (a + n) b n
      simpa [asArgument, inUnit, hp] using this
    exact hA _ (by simp) (by decide)

theorem within_lsq {env : Env} (hl : LsqSpec env) {n m : ℕ} {X : Fin n → Fin m → ℝ} {y : Fin n → ℝ} {nm : String} {f : VFun} {nlags : ℕ}
    {weight : Bool} {ct : String} {ev : List (ℝ × ℝ)} {ps : List ℝ}
    (h : initializeVariogramModel env X y nm none f nlags weight ct = .ok (ev, ps)) : ∃ S L, WithinBounds nm S L ps := by
  obtain ⟨-, h1, h2, h3⟩ := init_auto h
  obtain ⟨s, S, k1, k2, -, kS, -⟩ := extremes (l := ev.map Prod.snd) (by simpa using h3)
  obtain ⟨l, L, k3, k4, kl, kL, hlL⟩ := extremes (l := ev.map Prod.fst) (by simpa using h3)
  unfold calculateVariogramModel at h2
  simp only [py_pure, py_bind_eq_ok] at h2
  obtain ⟨p, hp, ⟨⟩, hck, ⟨⟩, -, hps⟩ := h2
  cases hps
  refine ⟨S, L, (feasible_iff hp kS kL _).1 ?_⟩
  have hpl : p.lb.length = p.x0.length ∧ p.ub.length = p.x0.length := by
    by_cases a1 : nm = "linear"
    · subst a1; rw [lsqProblem_linear k1 k2 k3 k4] at hp; cases hp; exact ⟨rfl, rfl⟩
    by_cases a2 : nm = "power"
    · subst a2; rw [lsqProblem_power k1 k2 k3 k4] at hp; cases hp; exact ⟨rfl, rfl⟩
    rw [lsqProblem_other a1 a2 k1 k2 k4] at hp; cases hp; exact ⟨rfl, rfl⟩
  exact hl _ p hck hpl.1 hpl.2

/-! ### `OrdinaryKriging` -/

theorem OK.create_auto {n : ℕ} {env : Env} {x y z : Fin n → ℝ} {args : OKArgs} {s : OK n}
    (h : OK.create env x y z args = .ok s) {nm : String} (hm : args.variogramModel = .name nm) (hp : args.params = .none) :
    ∃ f, variogramDict nm = some f ∧ s.variogramFunction = f ∧
      initializeVariogramModel env s.pts z nm none f args.nlags args.weight args.coordinatesType = .ok (s.lags, s.params) := by
  obtain ⟨hpt, exact, name, model, fArg, pArg, sc₀, an₀, f, fname, xc, yc, sc, an, adj, vp, lags, ps, stats,
    h1, h2, h3, h4, h5, h6, h7, rfl⟩ := OK.create_ok h
  rw [hm, hp] at h2
  obtain ⟨rfl, rfl, rfl, rfl, rfl, rfl⟩ : nm = name ∧ none = model ∧ args.variogramFunction = fArg ∧ .none = pArg ∧ _ := by
    have h2' := (Except.ok.inj h2)
    simpa only [Prod.mk.injEq] using h2'
  cases h5
  refine ⟨f, choose_builtin h3 (init_auto h6).1, rfl, ?_⟩
  refine Eq.trans (congrArg (fun P => initializeVariogramModel env P z nm none f args.nlags args.weight args.coordinatesType) ?_) h6
  funext i k
  fin_cases k <;> rfl

theorem OK.create_again {n : ℕ} {env : Env} {x y z : Fin n → ℝ} {args : OKArgs} {s : OK n}
    (h : OK.create env x y z args = .ok s) {nm : String} (hm : args.variogramModel = .name nm) (hp : args.params = .none) {q : ParamArg} {ps : List ℝ}
    (hq : makeVariogramParameterList nm q = .ok (some ps)) (hps : s.params = ps)
    (hg : ∀ f, initializeVariogramModel env s.pts z nm (some ps) f args.nlags args.weight args.coordinatesType = .ok (s.lags, ps)) :
    OK.create env x y z { args with params := q, paramsAllInt := false } = .ok s := by
  obtain ⟨hpt, exact, name, model, fArg, pArg, sc₀, an₀, f, fname, xc, yc, sc, an, adj, vp, lags, ps, stats,
    h1, h2, h3, h4, h5, h6, h7, rfl⟩ := OK.create_ok h
  rw [hm, hp] at h2
  obtain ⟨rfl, rfl, rfl, rfl, rfl, rfl⟩ : nm = name ∧ none = model ∧ args.variogramFunction = fArg ∧ .none = pArg ∧ _ := by
    have h2' := (Except.ok.inj h2)
    simpa only [Prod.mk.injEq] using h2'
  cases hps
  have hi : initializeVariogramModel env adj z nm (some ps) f args.nlags args.weight args.coordinatesType = .ok (lags, ps) := by
    refine Eq.trans (congrArg (fun P => initializeVariogramModel env P z nm (some ps) f args.nlags args.weight args.coordinatesType) ?_) (hg f)
    funext i k
    fin_cases k <;> rfl
  have h2' : OK.resolveModel env args.coordinatesType args.variogramModel args.variogramFunction q args.anisotropyScaling args.anisotropyAngle = .ok (nm, none, args.variogramFunction, q, args.anisotropyScaling, args.anisotropyAngle) := by rw [hm]; rfl

  unfold OK.create
  rw [if_neg (not_not.2 hpt), h1]
  simp only [py_pure, py_ok_bind, h2', hq, hi, h3, h4]
  have hq0 : intParams q ps false = false := by cases q <;> rfl
  split at h7
  · next he =>
    obtain ⟨st, h7, rfl⟩ := py_map_eq_ok.1 h7
    simp [he, h7, hq0, intParams_none]
  · next he =>
    cases h7
    simp [he, hq0, intParams_none]

/-- `OrdinaryKriging`: if there are parameters, within the bounds of C19, for which the model fits the experimental variogram
best (in the sense of the soft L1 loss), the fitted parameters are such parameters. -/
theorem C76_best_ok {n : ℕ} {env : Env} {x y z : Fin n → ℝ} {args : OKArgs} {s : OK n}
    (h : OK.create env x y z args = .ok s) {nm : String} (hm : args.variogramModel = .name nm) (hp : args.params = .none)
    (ho : LsqOptimal env) (hex : ∃ ps, BestFit nm args.weight s.lags ps) : BestFit nm args.weight s.lags s.params := by
  obtain ⟨f, hf, -, hi⟩ := OK.create_auto h hm hp
  exact init_best ho hf hi hex

/-- `OrdinaryKriging`: if some variogram of the model, with parameters within the bounds, passes through all points of the
experimental variogram, the fitted variogram does. -/
theorem C76_exact_ok {n : ℕ} {env : Env} {x y z : Fin n → ℝ} {args : OKArgs} {s : OK n}
    (h : OK.create env x y z args = .ok s) {nm : String} (hm : args.variogramModel = .name nm) (hp : args.params = .none)
    (ho : LsqOptimal env) {S L : ℝ} {ps : List ℝ} {γ : ℝ → ℝ} (hS : IsGreatest {v | v ∈ s.lags.map Prod.snd} S)
    (hL : IsGreatest {v | v ∈ s.lags.map Prod.fst} L) (hw : WithinBounds nm S L ps) (hb : Builtin nm ps γ) (he : ∀ e ∈ s.lags, γ e.1 = e.2) :
    ∃ γ', s.variogramFunction s.params = .ok γ' ∧ Builtin nm s.params γ' ∧ ∀ e ∈ s.lags, γ' e.1 = e.2 := by
  obtain ⟨f, hf, hv, hi⟩ := OK.create_auto h hm hp
  obtain ⟨h1, h2⟩ := best_exact (weight := args.weight) hS hL hw hb he
  obtain ⟨γ', hb', he'⟩ := h2 _ (init_best ho hf hi ⟨_, h1⟩)
  refine ⟨γ', ?_, hb', he'⟩
  obtain ⟨f', hf', hb'⟩ := hb'
  cases hf.symm.trans hf'
  rw [hv]
  exact hb'

/-- `OrdinaryKriging`, model 'linear': if the experimental variogram lies on a straight line with slope and nugget not negative,
these are the fitted parameters. -/
theorem C76_line_ok {n : ℕ} {env : Env} {x y z : Fin n → ℝ} {args : OKArgs} {s : OK n}
    (h : OK.create env x y z args = .ok s) (hm : args.variogramModel = .name "linear") (hp : args.params = .none)
    (ho : LsqOptimal env) {slope nugget : ℝ} (h1 : 0 ≤ slope) (h2 : 0 ≤ nugget)
    (he : ∀ e ∈ s.lags, slope * e.1 + nugget = e.2) : s.params = [slope, nugget] := by
  obtain ⟨f, hf, -, hi⟩ := OK.create_auto h hm hp
  exact line_unique ho hf hi h1 h2 he

/-- `OrdinaryKriging`: the fitted parameters (`variogram_model_parameters`), passed to the constructor explicitly - in the form it
wants, with the full sill -, give the same object. -/
theorem C76_again_ok {n : ℕ} {env : Env} {x y z : Fin n → ℝ} {args : OKArgs} {s : OK n}
    (h : OK.create env x y z args = .ok s) {nm : String} (hm : args.variogramModel = .name nm) (hp : args.params = .none)
    (hl : LsqSpec env) : OK.create env x y z { args with params := .list (asArgument nm s.params), paramsAllInt := false } = .ok s := by
  obtain ⟨f, hf, -, hi⟩ := OK.create_auto h hm hp
  obtain ⟨S, L, hw⟩ := within_lsq hl hi
  obtain ⟨k1, k2, k3⟩ := read_back hf hw
  obtain ⟨kc, kev, -, -⟩ := init_auto hi
  exact OK.create_again h hm hp k1 rfl fun _ => init_given kev k2 k3

/-! ### `OrdinaryKriging3D` -/

theorem OK3D.create_auto {n : ℕ} {env : Env} {x y z v : Fin n → ℝ} {args : OK3DArgs} {s : OK3D n}
    (h : OK3D.create env x y z v args = .ok s) {nm : String} (hm : args.variogramModel = .name nm) (hp : args.params = .none) :
    ∃ f, variogramDict nm = some f ∧ s.variogramFunction = f ∧
      initializeVariogramModel env s.pts v nm none f args.nlags args.weight "euclidean" = .ok (s.lags, s.params) := by
  obtain ⟨hpt, exact, name, model, fArg, pArg, an, f, fname, xc, yc, zc, vp, lags, ps, stats,
    h1, h2, h3, h4, h5, h6, h7, h8, h9, rfl⟩ := OK3D.create_ok h
  rw [hm, hp] at h2
  obtain ⟨rfl, rfl, rfl, rfl, rfl⟩ : nm = name ∧ none = model ∧ args.variogramFunction = fArg ∧ .none = pArg ∧ _ := by
    have h2' := (Except.ok.inj h2)
    simpa only [Prod.mk.injEq] using h2'
  cases h7
  refine ⟨f, choose_builtin h3 (init_auto h8).1, rfl, ?_⟩
  refine Eq.trans (congrArg (fun P => initializeVariogramModel env P v nm none f args.nlags args.weight "euclidean") ?_) h8
  funext i k
  fin_cases k <;> rfl

theorem OK3D.create_again {n : ℕ} {env : Env} {x y z v : Fin n → ℝ} {args : OK3DArgs} {s : OK3D n}
    (h : OK3D.create env x y z v args = .ok s) {nm : String} (hm : args.variogramModel = .name nm) (hp : args.params = .none) {q : ParamArg} {ps : List ℝ}
    (hq : makeVariogramParameterList nm q = .ok (some ps)) (hps : s.params = ps)
    (hg : ∀ f, initializeVariogramModel env s.pts v nm (some ps) f args.nlags args.weight "euclidean" = .ok (s.lags, ps)) :
    OK3D.create env x y z v { args with params := q } = .ok s := by
  obtain ⟨hpt, exact, name, model, fArg, pArg, an, f, fname, xc, yc, zc, vp, lags, ps, stats,
    h1, h2, h3, h4, h5, h6, h7, h8, h9, rfl⟩ := OK3D.create_ok h
  rw [hm, hp] at h2
  obtain ⟨rfl, rfl, rfl, rfl, rfl⟩ : nm = name ∧ none = model ∧ args.variogramFunction = fArg ∧ .none = pArg ∧ _ := by
    have h2' := (Except.ok.inj h2)
    simpa only [Prod.mk.injEq] using h2'
  cases hps
  have hi : initializeVariogramModel env (fun i => adjustPoint3 xc yc zc args.aniso (x i) (y i) (z i)) v nm (some ps) f args.nlags args.weight "euclidean" = .ok (lags, ps) := by
    refine Eq.trans (congrArg (fun P => initializeVariogramModel env P v nm (some ps) f args.nlags args.weight "euclidean") ?_) (hg f)
    funext i k
    fin_cases k <;> rfl
  have h2' : OK3D.resolveModel env args.variogramModel args.variogramFunction q args.aniso = .ok (nm, none, args.variogramFunction, q, args.aniso) := by rw [hm]; rfl

  unfold OK3D.create
  rw [if_neg (not_not.2 hpt), h1]
  simp only [py_pure, py_ok_bind, h2', hq, hi, h3, h4, h5, h6, h9]


/-- `OrdinaryKriging3D`: if there are parameters, within the bounds of C19, for which the model fits the experimental variogram
best (in the sense of the soft L1 loss), the fitted parameters are such parameters. -/
theorem C76_best_ok3 {n : ℕ} {env : Env} {x y z v : Fin n → ℝ} {args : OK3DArgs} {s : OK3D n}
    (h : OK3D.create env x y z v args = .ok s) {nm : String} (hm : args.variogramModel = .name nm) (hp : args.params = .none)
    (ho : LsqOptimal env) (hex : ∃ ps, BestFit nm args.weight s.lags ps) : BestFit nm args.weight s.lags s.params := by
  obtain ⟨f, hf, -, hi⟩ := OK3D.create_auto h hm hp
  exact init_best ho hf hi hex

/-- `OrdinaryKriging3D`: if some variogram of the model, with parameters within the bounds, passes through all points of the
experimental variogram, the fitted variogram does. -/
theorem C76_exact_ok3 {n : ℕ} {env : Env} {x y z v : Fin n → ℝ} {args : OK3DArgs} {s : OK3D n}
    (h : OK3D.create env x y z v args = .ok s) {nm : String} (hm : args.variogramModel = .name nm) (hp : args.params = .none)
    (ho : LsqOptimal env) {S L : ℝ} {ps : List ℝ} {γ : ℝ → ℝ} (hS : IsGreatest {v | v ∈ s.lags.map Prod.snd} S)
    (hL : IsGreatest {v | v ∈ s.lags.map Prod.fst} L) (hw : WithinBounds nm S L ps) (hb : Builtin nm ps γ) (he : ∀ e ∈ s.lags, γ e.1 = e.2) :
    ∃ γ', s.variogramFunction s.params = .ok γ' ∧ Builtin nm s.params γ' ∧ ∀ e ∈ s.lags, γ' e.1 = e.2 := by
  obtain ⟨f, hf, hv, hi⟩ := OK3D.create_auto h hm hp
  obtain ⟨h1, h2⟩ := best_exact (weight := args.weight) hS hL hw hb he
  obtain ⟨γ', hb', he'⟩ := h2 _ (init_best ho hf hi ⟨_, h1⟩)
  refine ⟨γ', ?_, hb', he'⟩
  obtain ⟨f', hf', hb'⟩ := hb'
  cases hf.symm.trans hf'
  rw [hv]
  exact hb'

/-- `OrdinaryKriging3D`, model 'linear': if the experimental variogram lies on a straight line with slope and nugget not negative,
these are the fitted parameters. -/
theorem C76_line_ok3 {n : ℕ} {env : Env} {x y z v : Fin n → ℝ} {args : OK3DArgs} {s : OK3D n}
    (h : OK3D.create env x y z v args = .ok s) (hm : args.variogramModel = .name "linear") (hp : args.params = .none)
    (ho : LsqOptimal env) {slope nugget : ℝ} (h1 : 0 ≤ slope) (h2 : 0 ≤ nugget)
    (he : ∀ e ∈ s.lags, slope * e.1 + nugget = e.2) : s.params = [slope, nugget] := by
  obtain ⟨f, hf, -, hi⟩ := OK3D.create_auto h hm hp
  exact line_unique ho hf hi h1 h2 he

/-- `OrdinaryKriging3D`: the fitted parameters (`variogram_model_parameters`), passed to the constructor explicitly - in the form it
wants, with the full sill -, give the same object. -/
theorem C76_again_ok3 {n : ℕ} {env : Env} {x y z v : Fin n → ℝ} {args : OK3DArgs} {s : OK3D n}
    (h : OK3D.create env x y z v args = .ok s) {nm : String} (hm : args.variogramModel = .name nm) (hp : args.params = .none)
    (hl : LsqSpec env) : OK3D.create env x y z v { args with params := .list (asArgument nm s.params) } = .ok s := by
  obtain ⟨f, hf, -, hi⟩ := OK3D.create_auto h hm hp
  obtain ⟨S, L, hw⟩ := within_lsq hl hi
  obtain ⟨k1, k2, k3⟩ := read_back hf hw
  obtain ⟨kc, kev, -, -⟩ := init_auto hi
  exact OK3D.create_again h hm hp k1 rfl fun _ => init_given kev k2 k3

/-! ### `UniversalKriging` -/

theorem UK.create_auto {n : ℕ} {env : Env} {x y z : Fin n → ℝ} {args : UKArgs} {s : UK n}
    (h : UK.create env x y z args = .ok s) {nm : String} (hm : args.variogramModel = .name nm) (hp : args.params = .none) :
    ∃ f, variogramDict nm = some f ∧ s.variogramFunction = f ∧
      initializeVariogramModel env s.pts z nm none f args.nlags args.weight "euclidean" = .ok (s.lags, s.params) := by
  obtain ⟨hpt, exact, name, model, fArg, pArg, sc, an, f, fname, xc, yc, vp, lags, ps, stats, ext, plog, spec, func,
    h1, h2, h3, h4, h5, h6, h7, h8, h9, h10, h11, h12, rfl⟩ := UK.create_ok h
  rw [hm, hp] at h2
  obtain ⟨rfl, rfl, rfl, rfl, rfl, rfl⟩ : nm = name ∧ none = model ∧ args.variogramFunction = fArg ∧ .none = pArg ∧ _ := by
    have h2' := (Except.ok.inj h2)
    simpa only [Prod.mk.injEq] using h2'
  cases h6
  refine ⟨f, choose_builtin h3 (init_auto h7).1, rfl, ?_⟩
  refine Eq.trans (congrArg (fun P => initializeVariogramModel env P z nm none f args.nlags args.weight "euclidean") ?_) h7
  funext i k
  fin_cases k <;> rfl

theorem UK.create_again {n : ℕ} {env : Env} {x y z : Fin n → ℝ} {args : UKArgs} {s : UK n}
    (h : UK.create env x y z args = .ok s) {nm : String} (hm : args.variogramModel = .name nm) (hp : args.params = .none) {q : ParamArg} {ps : List ℝ}
    (hq : makeVariogramParameterList nm q = .ok (some ps)) (hps : s.params = ps)
    (hg : ∀ f, initializeVariogramModel env s.pts z nm (some ps) f args.nlags args.weight "euclidean" = .ok (s.lags, ps)) :
    UK.create env x y z { args with params := q } = .ok s := by
  obtain ⟨hpt, exact, name, model, fArg, pArg, sc, an, f, fname, xc, yc, vp, lags, ps, stats, ext, plog, spec, func,
    h1, h2, h3, h4, h5, h6, h7, h8, h9, h10, h11, h12, rfl⟩ := UK.create_ok h
  rw [hm, hp] at h2
  obtain ⟨rfl, rfl, rfl, rfl, rfl, rfl⟩ : nm = name ∧ none = model ∧ args.variogramFunction = fArg ∧ .none = pArg ∧ _ := by
    have h2' := (Except.ok.inj h2)
    simpa only [Prod.mk.injEq] using h2'
  cases hps
  have hi : initializeVariogramModel env (adjustData2 x y xc yc args.anisotropyScaling args.anisotropyAngle) z nm (some ps) f args.nlags args.weight "euclidean" = .ok (lags, ps) := by
    refine Eq.trans (congrArg (fun P => initializeVariogramModel env P z nm (some ps) f args.nlags args.weight "euclidean") ?_) (hg f)
    funext i k
    fin_cases k <;> rfl
  have h2' : UK.resolveModel env args.variogramModel args.variogramFunction q args.anisotropyScaling args.anisotropyAngle = .ok (nm, none, args.variogramFunction, q, args.anisotropyScaling, args.anisotropyAngle) := by rw [hm]; rfl
  have h9' : setupExternalZ x y { args with params := q, exactValues := .bool exact } = .ok ext := h9
  have h10' : setupPointLog xc yc args.anisotropyScaling args.anisotropyAngle { args with params := q, exactValues := .bool exact } = .ok plog := h10

  unfold UK.create
  rw [if_neg (not_not.2 hpt), h1]
  simp only [py_pure, py_ok_bind, h2', hq, hi, h3, h4, h5, h8, h9', h10', h11, h12]


/-- `UniversalKriging`: if there are parameters, within the bounds of C19, for which the model fits the experimental variogram
best (in the sense of the soft L1 loss), the fitted parameters are such parameters. -/
theorem C76_best_uk {n : ℕ} {env : Env} {x y z : Fin n → ℝ} {args : UKArgs} {s : UK n}
    (h : UK.create env x y z args = .ok s) {nm : String} (hm : args.variogramModel = .name nm) (hp : args.params = .none)
    (ho : LsqOptimal env) (hex : ∃ ps, BestFit nm args.weight s.lags ps) : BestFit nm args.weight s.lags s.params := by
  obtain ⟨f, hf, -, hi⟩ := UK.create_auto h hm hp
  exact init_best ho hf hi hex

/-- `UniversalKriging`: if some variogram of the model, with parameters within the bounds, passes through all points of the
experimental variogram, the fitted variogram does. -/
theorem C76_exact_uk {n : ℕ} {env : Env} {x y z : Fin n → ℝ} {args : UKArgs} {s : UK n}
    (h : UK.create env x y z args = .ok s) {nm : String} (hm : args.variogramModel = .name nm) (hp : args.params = .none)
    (ho : LsqOptimal env) {S L : ℝ} {ps : List ℝ} {γ : ℝ → ℝ} (hS : IsGreatest {v | v ∈ s.lags.map Prod.snd} S)
    (hL : IsGreatest {v | v ∈ s.lags.map Prod.fst} L) (hw : WithinBounds nm S L ps) (hb : Builtin nm ps γ) (he : ∀ e ∈ s.lags, γ e.1 = e.2) :
    ∃ γ', s.variogramFunction s.params = .ok γ' ∧ Builtin nm s.params γ' ∧ ∀ e ∈ s.lags, γ' e.1 = e.2 := by
  obtain ⟨f, hf, hv, hi⟩ := UK.create_auto h hm hp
  obtain ⟨h1, h2⟩ := best_exact (weight := args.weight) hS hL hw hb he
  obtain ⟨γ', hb', he'⟩ := h2 _ (init_best ho hf hi ⟨_, h1⟩)
  refine ⟨γ', ?_, hb', he'⟩
  obtain ⟨f', hf', hb'⟩ := hb'
  cases hf.symm.trans hf'
  rw [hv]
  exact hb'

/-- `UniversalKriging`, model 'linear': if the experimental variogram lies on a straight line with slope and nugget not negative,
these are the fitted parameters. -/
theorem C76_line_uk {n : ℕ} {env : Env} {x y z : Fin n → ℝ} {args : UKArgs} {s : UK n}
    (h : UK.create env x y z args = .ok s) (hm : args.variogramModel = .name "linear") (hp : args.params = .none)
    (ho : LsqOptimal env) {slope nugget : ℝ} (h1 : 0 ≤ slope) (h2 : 0 ≤ nugget)
    (he : ∀ e ∈ s.lags, slope * e.1 + nugget = e.2) : s.params = [slope, nugget] := by
  obtain ⟨f, hf, -, hi⟩ := UK.create_auto h hm hp
  exact line_unique ho hf hi h1 h2 he

/-- `UniversalKriging`: the fitted parameters (`variogram_model_parameters`), passed to the constructor explicitly - in the form it
wants, with the full sill -, give the same object. -/
theorem C76_again_uk {n : ℕ} {env : Env} {x y z : Fin n → ℝ} {args : UKArgs} {s : UK n}
    (h : UK.create env x y z args = .ok s) {nm : String} (hm : args.variogramModel = .name nm) (hp : args.params = .none)
    (hl : LsqSpec env) : UK.create env x y z { args with params := .list (asArgument nm s.params) } = .ok s := by
  obtain ⟨f, hf, -, hi⟩ := UK.create_auto h hm hp
  obtain ⟨S, L, hw⟩ := within_lsq hl hi
  obtain ⟨k1, k2, k3⟩ := read_back hf hw
  obtain ⟨kc, kev, -, -⟩ := init_auto hi
  exact UK.create_again h hm hp k1 rfl fun _ => init_given kev k2 k3

/-! ### `UniversalKriging3D` -/

theorem UK3D.create_auto {n : ℕ} {env : Env} {x y z v : Fin n → ℝ} {args : UK3DArgs} {s : UK3D n}
    (h : UK3D.create env x y z v args = .ok s) {nm : String} (hm : args.variogramModel = .name nm) (hp : args.params = .none) :
    ∃ f, variogramDict nm = some f ∧ s.variogramFunction = f ∧
      initializeVariogramModel env s.pts v nm none f args.nlags args.weight "euclidean" = .ok (s.lags, s.params) := by
  obtain ⟨hpt, exact, name, model, fArg, pArg, an, f, fname, xc, yc, zc, vp, lags, ps, stats, spec, func,
    h1, h2, h3, h4, h5, h6, h7, h8, h9, h10, h11, rfl⟩ := UK3D.create_ok h
  rw [hm, hp] at h2
  obtain ⟨rfl, rfl, rfl, rfl, rfl⟩ : nm = name ∧ none = model ∧ args.variogramFunction = fArg ∧ .none = pArg ∧ _ := by
    have h2' := (Except.ok.inj h2)
    simpa only [Prod.mk.injEq] using h2'
  cases h7
  refine ⟨f, choose_builtin h3 (init_auto h8).1, rfl, ?_⟩
  refine Eq.trans (congrArg (fun P => initializeVariogramModel env P v nm none f args.nlags args.weight "euclidean") ?_) h8
  funext i k
  fin_cases k <;> rfl

theorem UK3D.create_again {n : ℕ} {env : Env} {x y z v : Fin n → ℝ} {args : UK3DArgs} {s : UK3D n}
    (h : UK3D.create env x y z v args = .ok s) {nm : String} (hm : args.variogramModel = .name nm) (hp : args.params = .none) {q : ParamArg} {ps : List ℝ}
    (hq : makeVariogramParameterList nm q = .ok (some ps)) (hps : s.params = ps)
    (hg : ∀ f, initializeVariogramModel env s.pts v nm (some ps) f args.nlags args.weight "euclidean" = .ok (s.lags, ps)) :
    UK3D.create env x y z v { args with params := q } = .ok s := by
  obtain ⟨hpt, exact, name, model, fArg, pArg, an, f, fname, xc, yc, zc, vp, lags, ps, stats, spec, func,
    h1, h2, h3, h4, h5, h6, h7, h8, h9, h10, h11, rfl⟩ := UK3D.create_ok h
  rw [hm, hp] at h2
  obtain ⟨rfl, rfl, rfl, rfl, rfl⟩ : nm = name ∧ none = model ∧ args.variogramFunction = fArg ∧ .none = pArg ∧ _ := by
    have h2' := (Except.ok.inj h2)
    simpa only [Prod.mk.injEq] using h2'
  cases hps
  have hi : initializeVariogramModel env (fun i => adjustPoint3 xc yc zc args.aniso (x i) (y i) (z i)) v nm (some ps) f args.nlags args.weight "euclidean" = .ok (lags, ps) := by
    refine Eq.trans (congrArg (fun P => initializeVariogramModel env P v nm (some ps) f args.nlags args.weight "euclidean") ?_) (hg f)
    funext i k
    fin_cases k <;> rfl
  have h2' : OK3D.resolveModel env args.variogramModel args.variogramFunction q args.aniso = .ok (nm, none, args.variogramFunction, q, args.aniso) := by rw [hm]; rfl

  unfold UK3D.create
  rw [if_neg (not_not.2 hpt), h1]
  simp only [py_pure, py_ok_bind, h2', hq, hi, h3, h4, h5, h6, h9, h10, h11]


/-- `UniversalKriging3D`: if there are parameters, within the bounds of C19, for which the model fits the experimental variogram
best (in the sense of the soft L1 loss), the fitted parameters are such parameters. -/
theorem C76_best_uk3 {n : ℕ} {env : Env} {x y z v : Fin n → ℝ} {args : UK3DArgs} {s : UK3D n}
    (h : UK3D.create env x y z v args = .ok s) {nm : String} (hm : args.variogramModel = .name nm) (hp : args.params = .none)
    (ho : LsqOptimal env) (hex : ∃ ps, BestFit nm args.weight s.lags ps) : BestFit nm args.weight s.lags s.params := by
  obtain ⟨f, hf, -, hi⟩ := UK3D.create_auto h hm hp
  exact init_best ho hf hi hex

/-- `UniversalKriging3D`: if some variogram of the model, with parameters within the bounds, passes through all points of the
experimental variogram, the fitted variogram does. -/
theorem C76_exact_uk3 {n : ℕ} {env : Env} {x y z v : Fin n → ℝ} {args : UK3DArgs} {s : UK3D n}
    (h : UK3D.create env x y z v args = .ok s) {nm : String} (hm : args.variogramModel = .name nm) (hp : args.params = .none)
    (ho : LsqOptimal env) {S L : ℝ} {ps : List ℝ} {γ : ℝ → ℝ} (hS : IsGreatest {v | v ∈ s.lags.map Prod.snd} S)
    (hL : IsGreatest {v | v ∈ s.lags.map Prod.fst} L) (hw : WithinBounds nm S L ps) (hb : Builtin nm ps γ) (he : ∀ e ∈ s.lags, γ e.1 = e.2) :
    ∃ γ', s.variogramFunction s.params = .ok γ' ∧ Builtin nm s.params γ' ∧ ∀ e ∈ s.lags, γ' e.1 = e.2 := by
  obtain ⟨f, hf, hv, hi⟩ := UK3D.create_auto h hm hp
  obtain ⟨h1, h2⟩ := best_exact (weight := args.weight) hS hL hw hb he
  obtain ⟨γ', hb', he'⟩ := h2 _ (init_best ho hf hi ⟨_, h1⟩)
  refine ⟨γ', ?_, hb', he'⟩
  obtain ⟨f', hf', hb'⟩ := hb'
  cases hf.symm.trans hf'
  rw [hv]
  exact hb'

/-- `UniversalKriging3D`, model 'linear': if the experimental variogram lies on a straight line with slope and nugget not negative,
these are the fitted parameters. -/
theorem C76_line_uk3 {n : ℕ} {env : Env} {x y z v : Fin n → ℝ} {args : UK3DArgs} {s : UK3D n}
    (h : UK3D.create env x y z v args = .ok s) (hm : args.variogramModel = .name "linear") (hp : args.params = .none)
    (ho : LsqOptimal env) {slope nugget : ℝ} (h1 : 0 ≤ slope) (h2 : 0 ≤ nugget)
    (he : ∀ e ∈ s.lags, slope * e.1 + nugget = e.2) : s.params = [slope, nugget] := by
  obtain ⟨f, hf, -, hi⟩ := UK3D.create_auto h hm hp
  exact line_unique ho hf hi h1 h2 he

/-- `UniversalKriging3D`: the fitted parameters (`variogram_model_parameters`), passed to the constructor explicitly - in the form it
wants, with the full sill -, give the same object. -/
theorem C76_again_uk3 {n : ℕ} {env : Env} {x y z v : Fin n → ℝ} {args : UK3DArgs} {s : UK3D n}
    (h : UK3D.create env x y z v args = .ok s) {nm : String} (hm : args.variogramModel = .name nm) (hp : args.params = .none)
    (hl : LsqSpec env) : UK3D.create env x y z v { args with params := .list (asArgument nm s.params) } = .ok s := by
  obtain ⟨f, hf, -, hi⟩ := UK3D.create_auto h hm hp
  obtain ⟨S, L, hw⟩ := within_lsq hl hi
  obtain ⟨k1, k2, k3⟩ := read_back hf hw
  obtain ⟨kc, kev, -, -⟩ := init_auto hi
  exact UK3D.create_again h hm hp k1 rfl fun _ => init_given kev k2 k3

/-- `OrdinaryKriging`: coordinates multiplied by `c` (another unit of length): the lags are multiplied by `c`, the
semivariances are unchanged, and if the best fit is unique the fitted parameters are the same parameters in the other unit. -/
theorem C76_unit_ok {n : ℕ} {env : Env} {x y z : Fin n → ℝ} {args : OKArgs} {s s' : OK n} {c : ℝ}
    (h : OK.create env x y z args = .ok s) {nm : String} (hm : args.variogramModel = .name nm) (hp : args.params = .none)
    (hc : 0 < c) (heuc : args.coordinatesType = "euclidean") (h' : OK.create env (fun i => c * x i) (fun i => c * y i) z args = .ok s')
    (ho : LsqOptimal env) (hu : ∃! ps, BestFit nm args.weight s.lags ps) :
    s'.lags = s.lags.map (fun e => (c * e.1, e.2)) ∧ s'.params = inUnit c nm s.params := by
  obtain ⟨f, hf, -, hi⟩ := OK.create_auto h hm hp
  obtain ⟨f', hf', -, hi'⟩ := OK.create_auto h' (nm := nm) hm hp
  cases hf.symm.trans hf'
  rw [heuc] at hi hi'
  have hX : ∀ i j, euclid (s'.pts i) (s'.pts j) = c * euclid (s.pts i) (s.pts j) := by
    intro i j
    have f1 := OK.create_fields h
    have f1' := OK.create_fields h'
    have e : s.dataDist i j = euclid (s.pts i) (s.pts j) := if_pos (f1.2.2.2.2.1.trans heuc)
    have e' : s'.dataDist i j = euclid (s'.pts i) (s'.pts j) := if_pos (f1'.2.2.2.2.1.trans heuc)
    rw [← e, ← e', (OK.create_dist h).1, (OK.create_dist h').1]
    unfold okDistance distance2
    rw [if_pos heuc, if_pos heuc]
    exact anisoDist2_times hc _ _ (x i, y i) (x j, y j)
  exact init_unit hc hX ho hf hi hi' hu

/-- `OrdinaryKriging`, automatic fit: coordinates and query points in another unit of length: the same estimates and variances. -/
theorem C76_unit_answer_ok {n : ℕ} {env : Env} {x y z : Fin n → ℝ} {args : OKArgs} {s s' : OK n} {c : ℝ}
    (h : OK.create env x y z args = .ok s) {nm : String} (hm : args.variogramModel = .name nm) (hp : args.params = .none)
    (hc : 0 < c) (heuc : args.coordinatesType = "euclidean") (h' : OK.create env (fun i => c * x i) (fun i => c * y i) z args = .ok s')
    (ho : LsqOptimal env) (hu : ∃! ps, BestFit nm args.weight s.lags ps)
    {ea : ExecArgs} (ha : Admissible env args s ea.nClosest) (ha' : Admissible env args s' ea.nClosest)
    (hclose : ∀ j p, queryAt ea j = some p → ∀ i, SameClose c args.exactValues (okDistance args p (x i, y i)))
    (ht : NoTies ea.nClosest (queryAt ea) fun p i => okDistance args p (x i, y i))
    {r : ExecResult} (hr : s.execute env ea = .ok r) : s'.execute env (times c ea) = .ok r := by
  obtain ⟨e1, e2⟩ := C76_unit_ok h hm hp hc heuc h' ho hu
  obtain ⟨f, hf, -, hi⟩ := OK.create_auto h hm hp
  obtain ⟨f', hf', -, hi'⟩ := OK.create_auto h' (nm := nm) hm hp
  obtain ⟨S, L, -, -, hw, -⟩ := init_best ho hf hi hu.exists
  have hw' := within_times hc hw
  rw [← e2] at hw'
  obtain ⟨k1, k2, k3⟩ := read_back hf hw
  obtain ⟨k1', k2', k3'⟩ := read_back hf hw'
  have a1 := OK.create_again h hm hp k1 rfl fun _ => init_given (init_auto hi).2.1 k2 k3
  have a2 := OK.create_again h' (nm := nm) hm hp k1' rfl fun _ => init_given (init_auto hi').2.1 k2' k3'
  rw [e2] at a2
  exact C53_unit_2d (args := { args with params := .list (asArgument nm s.params), paramsAllInt := false })
    (args' := { args with params := .list (asArgument nm (inUnit c nm s.params)), paramsAllInt := false }) hc heuc hm rfl (otherUnit_argument hf c args.variogramFunction hw) rfl a1 a2
    ⟨ha.knn, ha.noClash, ha.range, ha.window⟩ ⟨ha'.knn, ha'.noClash, ha'.range, ha'.window⟩ hclose ht hr

/-- `OrdinaryKriging3D`: coordinates multiplied by `c` (another unit of length): the lags are multiplied by `c`, the
semivariances are unchanged, and if the best fit is unique the fitted parameters are the same parameters in the other unit. -/
theorem C76_unit_ok3 {n : ℕ} {env : Env} {x y z v : Fin n → ℝ} {args : OK3DArgs} {s s' : OK3D n} {c : ℝ}
    (h : OK3D.create env x y z v args = .ok s) {nm : String} (hm : args.variogramModel = .name nm) (hp : args.params = .none)
    (hc : 0 < c) (h' : OK3D.create env (fun i => c * x i) (fun i => c * y i) (fun i => c * z i) v args = .ok s')
    (ho : LsqOptimal env) (hu : ∃! ps, BestFit nm args.weight s.lags ps) :
    s'.lags = s.lags.map (fun e => (c * e.1, e.2)) ∧ s'.params = inUnit c nm s.params := by
  obtain ⟨f, hf, -, hi⟩ := OK3D.create_auto h hm hp
  obtain ⟨f', hf', -, hi'⟩ := OK3D.create_auto h' (nm := nm) hm hp
  cases hf.symm.trans hf'
  have hX : ∀ i j, euclid (s'.pts i) (s'.pts j) = c * euclid (s.pts i) (s.pts j) := by
    intro i j
    have e := (OK3D.create_dist h).1 i j
    have e' := (OK3D.create_dist h').1 i j
    unfold OK3D.dataDist at e e'
    rw [e, e']
    exact distance3_times hc _ (x i, y i, z i) (x j, y j, z j)
  exact init_unit hc hX ho hf hi hi' hu

/-- `OrdinaryKriging3D`, automatic fit: coordinates and query points in another unit of length: the same estimates and variances. -/
theorem C76_unit_answer_ok3 {n : ℕ} {env : Env} {x y z v : Fin n → ℝ} {args : OK3DArgs} {s s' : OK3D n} {c : ℝ}
    (h : OK3D.create env x y z v args = .ok s) {nm : String} (hm : args.variogramModel = .name nm) (hp : args.params = .none)
    (hc : 0 < c) (h' : OK3D.create env (fun i => c * x i) (fun i => c * y i) (fun i => c * z i) v args = .ok s')
    (ho : LsqOptimal env) (hu : ∃! ps, BestFit nm args.weight s.lags ps)
    {ea : ExecArgs3} (hk : KnnSpec env) (hwin : WindowFits n ea.nClosest)
    (hclose : ∀ j p, queryAt3 ea j = some p → ∀ i, SameClose c args.exactValues (ok3Distance args p (x i, y i, z i)))
    (ht : NoTies ea.nClosest (queryAt3 ea) fun p i => ok3Distance args p (x i, y i, z i))
    {r : ExecResult} (hr : s.execute env ea = .ok r) : s'.execute env (times3 c ea) = .ok r := by
  obtain ⟨e1, e2⟩ := C76_unit_ok3 h hm hp hc h' ho hu
  obtain ⟨f, hf, -, hi⟩ := OK3D.create_auto h hm hp
  obtain ⟨f', hf', -, hi'⟩ := OK3D.create_auto h' (nm := nm) hm hp
  obtain ⟨S, L, -, -, hw, -⟩ := init_best ho hf hi hu.exists
  have hw' := within_times hc hw
  rw [← e2] at hw'
  obtain ⟨k1, k2, k3⟩ := read_back hf hw
  obtain ⟨k1', k2', k3'⟩ := read_back hf hw'
  have a1 := OK3D.create_again h hm hp k1 rfl fun _ => init_given (init_auto hi).2.1 k2 k3
  have a2 := OK3D.create_again h' (nm := nm) hm hp k1' rfl fun _ => init_given (init_auto hi').2.1 k2' k3'
  rw [e2] at a2
  exact C53_unit_3d (args := { args with params := .list (asArgument nm s.params) })
    (args' := { args with params := .list (asArgument nm (inUnit c nm s.params)) }) hc hm rfl (otherUnit_argument hf c args.variogramFunction hw) rfl a1 a2 hk hwin hclose ht hr

/-- `UniversalKriging`: coordinates multiplied by `c` (another unit of length): the lags are multiplied by `c`, the
semivariances are unchanged, and if the best fit is unique the fitted parameters are the same parameters in the other unit. -/
theorem C76_unit_uk {n : ℕ} {env : Env} {x y z : Fin n → ℝ} {args : UKArgs} {s s' : UK n} {c : ℝ}
    (h : UK.create env x y z args = .ok s) {nm : String} (hm : args.variogramModel = .name nm) (hp : args.params = .none)
    (hc : 0 < c) (h' : UK.create env (fun i => c * x i) (fun i => c * y i) z (timesUK c args) = .ok s')
    (ho : LsqOptimal env) (hu : ∃! ps, BestFit nm args.weight s.lags ps) :
    s'.lags = s.lags.map (fun e => (c * e.1, e.2)) ∧ s'.params = inUnit c nm s.params := by
  obtain ⟨f, hf, -, hi⟩ := UK.create_auto h hm hp
  obtain ⟨f', hf', -, hi'⟩ := UK.create_auto h' (nm := nm) hm hp
  cases hf.symm.trans hf'
  have hX : ∀ i j, euclid (s'.pts i) (s'.pts j) = c * euclid (s.pts i) (s.pts j) := by
    intro i j
    have e := (UK.create_dist h).1 i j
    have e' := (UK.create_dist h').1 i j
    unfold UK.dataDist at e e'
    rw [e, e']
    exact anisoDist2_times hc _ _ (x i, y i) (x j, y j)
  exact init_unit hc hX ho hf hi hi' hu

/-- `UniversalKriging`, automatic fit: coordinates and query points in another unit of length: the same estimates and variances. -/
theorem C76_unit_answer_uk {n : ℕ} {env : Env} {x y z : Fin n → ℝ} {args : UKArgs} {s s' : UK n} {c : ℝ}
    (h : UK.create env x y z args = .ok s) {nm : String} (hm : args.variogramModel = .name nm) (hp : args.params = .none)
    (hc : 0 < c) (h' : UK.create env (fun i => c * x i) (fun i => c * y i) z (timesUK c args) = .ok s')
    (ho : LsqOptimal env) (hu : ∃! ps, BestFit nm args.weight s.lags ps)
    (hpi : args.pseudoInv = false) {ea : UKExecArgs} (hs : "specified" ∈ args.driftTerms → ea.toExec.backend = "vectorized")
    {r r' : ExecResult} (hr : s.execute ea = .ok r) (hr' : s'.execute { ea with toExec := times c ea.toExec } = .ok r')
    {j : ℕ} {p : ℝ × ℝ} (hq : queryAt ea.toExec j = some p) (hma : maskedAt ea.toExec j = false)
    (hclose : ∀ i, SameClose c args.exactValues (ukDistance args p (x i, y i)))
    (hwell : "point_log" ∈ args.driftTerms → ∀ w ∈ args.pointDrift.getD [],
      ukDistance args p (w.1, w.2.1) ≠ 0 ∧ ∀ i, ukDistance args (x i, y i) (w.1, w.2.1) ≠ 0) :
    ∃ est var, r.z[j]? = some (some est) ∧ r'.z[j]? = some (some est) ∧
      r.ss[j]? = some (some var) ∧ r'.ss[j]? = some (some var) := by
  obtain ⟨e1, e2⟩ := C76_unit_uk h hm hp hc h' ho hu
  obtain ⟨f, hf, -, hi⟩ := UK.create_auto h hm hp
  obtain ⟨f', hf', -, hi'⟩ := UK.create_auto h' (nm := nm) hm hp
  obtain ⟨S, L, -, -, hw, -⟩ := init_best ho hf hi hu.exists
  have hw' := within_times hc hw
  rw [← e2] at hw'
  obtain ⟨k1, k2, k3⟩ := read_back hf hw
  obtain ⟨k1', k2', k3'⟩ := read_back hf hw'
  have a1 := UK.create_again h hm hp k1 rfl fun _ => init_given (init_auto hi).2.1 k2 k3
  have a2 := UK.create_again h' (nm := nm) hm hp k1' rfl fun _ => init_given (init_auto hi').2.1 k2' k3'
  rw [e2] at a2
  exact C53_unit_uk (args := { args with params := .list (asArgument nm s.params) })
    (args' := { timesUK c args with params := .list (asArgument nm (inUnit c nm s.params)) }) hc hm rfl (otherUnit_argument hf c args.variogramFunction hw) rfl a1 a2 hpi hs hr hr' hq hma hclose hwell

/-- `UniversalKriging3D`: coordinates multiplied by `c` (another unit of length): the lags are multiplied by `c`, the
semivariances are unchanged, and if the best fit is unique the fitted parameters are the same parameters in the other unit. -/
theorem C76_unit_uk3 {n : ℕ} {env : Env} {x y z v : Fin n → ℝ} {args : UK3DArgs} {s s' : UK3D n} {c : ℝ}
    (h : UK3D.create env x y z v args = .ok s) {nm : String} (hm : args.variogramModel = .name nm) (hp : args.params = .none)
    (hc : 0 < c) (h' : UK3D.create env (fun i => c * x i) (fun i => c * y i) (fun i => c * z i) v (timesUK3 c args) = .ok s')
    (ho : LsqOptimal env) (hu : ∃! ps, BestFit nm args.weight s.lags ps) :
    s'.lags = s.lags.map (fun e => (c * e.1, e.2)) ∧ s'.params = inUnit c nm s.params := by
  obtain ⟨f, hf, -, hi⟩ := UK3D.create_auto h hm hp
  obtain ⟨f', hf', -, hi'⟩ := UK3D.create_auto h' (nm := nm) hm hp
  cases hf.symm.trans hf'
  have hX : ∀ i j, euclid (s'.pts i) (s'.pts j) = c * euclid (s.pts i) (s.pts j) := by
    intro i j
    have e := (UK3D.create_dist h).1 i j
    have e' := (UK3D.create_dist h').1 i j
    unfold UK3D.dataDist at e e'
    rw [e, e']
    exact distance3_times hc _ (x i, y i, z i) (x j, y j, z j)
  exact init_unit hc hX ho hf hi hi' hu

/-- `UniversalKriging3D`, automatic fit: coordinates and query points in another unit of length: the same estimates and variances. -/
theorem C76_unit_answer_uk3 {n : ℕ} {env : Env} {x y z v : Fin n → ℝ} {args : UK3DArgs} {s s' : UK3D n} {c : ℝ}
    (h : UK3D.create env x y z v args = .ok s) {nm : String} (hm : args.variogramModel = .name nm) (hp : args.params = .none)
    (hc : 0 < c) (h' : UK3D.create env (fun i => c * x i) (fun i => c * y i) (fun i => c * z i) v (timesUK3 c args) = .ok s')
    (ho : LsqOptimal env) (hu : ∃! ps, BestFit nm args.weight s.lags ps)
    (hpi : args.pseudoInv = false) {ea : UK3DExecArgs} (hs : "specified" ∈ args.driftTerms → ea.toExec.backend = "vectorized")
    {r r' : ExecResult} (hr : s.execute ea = .ok r) (hr' : s'.execute { ea with toExec := times3 c ea.toExec } = .ok r')
    {j : ℕ} {p : ℝ × ℝ × ℝ} (hq : queryAt3 ea.toExec j = some p) (hma : maskedAt3 ea.toExec j = false)
    (hclose : ∀ i, SameClose c args.exactValues (uk3Distance args p (x i, y i, z i))) :
    ∃ est var, r.z[j]? = some (some est) ∧ r'.z[j]? = some (some est) ∧
      r.ss[j]? = some (some var) ∧ r'.ss[j]? = some (some var) := by
  obtain ⟨e1, e2⟩ := C76_unit_uk3 h hm hp hc h' ho hu
  obtain ⟨f, hf, -, hi⟩ := UK3D.create_auto h hm hp
  obtain ⟨f', hf', -, hi'⟩ := UK3D.create_auto h' (nm := nm) hm hp
  obtain ⟨S, L, -, -, hw, -⟩ := init_best ho hf hi hu.exists
  have hw' := within_times hc hw
  rw [← e2] at hw'
  obtain ⟨k1, k2, k3⟩ := read_back hf hw
  obtain ⟨k1', k2', k3'⟩ := read_back hf hw'
  have a1 := UK3D.create_again h hm hp k1 rfl fun _ => init_given (init_auto hi).2.1 k2 k3
  have a2 := UK3D.create_again h' (nm := nm) hm hp k1' rfl fun _ => init_given (init_auto hi').2.1 k2' k3'
  rw [e2] at a2
  exact C53_unit_uk3d (args := { args with params := .list (asArgument nm s.params) })
    (args' := { timesUK3 c args with params := .list (asArgument nm (inUnit c nm s.params)) }) hc hm rfl (otherUnit_argument hf c args.variogramFunction hw) rfl a1 a2 hpi hs hr hr' hq hma hclose

/-- `OrdinaryKriging`, models with a sill: `variogram_model_parameters` as they are, passed as `variogram_parameters`, are taken for
`[sill, range, nugget]`: the partial sill becomes smaller by the nugget. -/
theorem C76_feedback_ok {n : ℕ} {env : Env} {x y z : Fin n → ℝ} {args : OKArgs} {s s' : OK n}
    (h : OK.create env x y z args = .ok s) {nm : String} (hm : args.variogramModel = .name nm) (hp : args.params = .none)
    (hl : LsqSpec env) (h1 : nm ≠ "linear") (h2 : nm ≠ "power")
    (h' : OK.create env x y z { args with params := .list s.params } = .ok s') :
    ∃ psill range nugget, s.params = [psill, range, nugget] ∧ s'.params = [psill - nugget, range, nugget] := by
  obtain ⟨f, hf, -, hi⟩ := OK.create_auto h hm hp
  obtain ⟨S, L, hw⟩ := within_lsq hl hi
  obtain ⟨a, b, n, e, k⟩ := read_raw hf h1 h2 hw
  exact ⟨a, b, n, e, (OK.create_variogramOf h' hm).list k⟩

/-- `OrdinaryKriging3D`, models with a sill: `variogram_model_parameters` as they are, passed as `variogram_parameters`, are taken for
`[sill, range, nugget]`: the partial sill becomes smaller by the nugget. -/
theorem C76_feedback_ok3 {n : ℕ} {env : Env} {x y z v : Fin n → ℝ} {args : OK3DArgs} {s s' : OK3D n}
    (h : OK3D.create env x y z v args = .ok s) {nm : String} (hm : args.variogramModel = .name nm) (hp : args.params = .none)
    (hl : LsqSpec env) (h1 : nm ≠ "linear") (h2 : nm ≠ "power")
    (h' : OK3D.create env x y z v { args with params := .list s.params } = .ok s') :
    ∃ psill range nugget, s.params = [psill, range, nugget] ∧ s'.params = [psill - nugget, range, nugget] := by
  obtain ⟨f, hf, -, hi⟩ := OK3D.create_auto h hm hp
  obtain ⟨S, L, hw⟩ := within_lsq hl hi
  obtain ⟨a, b, n, e, k⟩ := read_raw hf h1 h2 hw
  exact ⟨a, b, n, e, (OK3D.create_variogramOf h' hm).list k⟩

/-- `UniversalKriging`, models with a sill: `variogram_model_parameters` as they are, passed as `variogram_parameters`, are taken for
`[sill, range, nugget]`: the partial sill becomes smaller by the nugget. -/
theorem C76_feedback_uk {n : ℕ} {env : Env} {x y z : Fin n → ℝ} {args : UKArgs} {s s' : UK n}
    (h : UK.create env x y z args = .ok s) {nm : String} (hm : args.variogramModel = .name nm) (hp : args.params = .none)
    (hl : LsqSpec env) (h1 : nm ≠ "linear") (h2 : nm ≠ "power")
    (h' : UK.create env x y z { args with params := .list s.params } = .ok s') :
    ∃ psill range nugget, s.params = [psill, range, nugget] ∧ s'.params = [psill - nugget, range, nugget] := by
  obtain ⟨f, hf, -, hi⟩ := UK.create_auto h hm hp
  obtain ⟨S, L, hw⟩ := within_lsq hl hi
  obtain ⟨a, b, n, e, k⟩ := read_raw hf h1 h2 hw
  exact ⟨a, b, n, e, (UK.create_variogramOf h' hm).list k⟩

/-- `UniversalKriging3D`, models with a sill: `variogram_model_parameters` as they are, passed as `variogram_parameters`, are taken for
`[sill, range, nugget]`: the partial sill becomes smaller by the nugget. -/
theorem C76_feedback_uk3 {n : ℕ} {env : Env} {x y z v : Fin n → ℝ} {args : UK3DArgs} {s s' : UK3D n}
    (h : UK3D.create env x y z v args = .ok s) {nm : String} (hm : args.variogramModel = .name nm) (hp : args.params = .none)
    (hl : LsqSpec env) (h1 : nm ≠ "linear") (h2 : nm ≠ "power")
    (h' : UK3D.create env x y z v { args with params := .list s.params } = .ok s') :
    ∃ psill range nugget, s.params = [psill, range, nugget] ∧ s'.params = [psill - nugget, range, nugget] := by
  obtain ⟨f, hf, -, hi⟩ := UK3D.create_auto h hm hp
  obtain ⟨S, L, hw⟩ := within_lsq hl hi
  obtain ⟨a, b, n, e, k⟩ := read_raw hf h1 h2 hw
  exact ⟨a, b, n, e, (UK3D.create_variogramOf h' hm).list k⟩

end
end PyKrige
