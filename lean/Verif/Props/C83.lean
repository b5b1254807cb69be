import Verif.Lemmas.VerboseWalk
import Verif.Props.C25
import Verif.Props.C46
import Verif.Props.C39Accept
import Verif.Examples.Use8

/-!
# C83: arguments that do not apply have no effect

The classes have many arguments that matter only together with others.  Whatever is passed for them otherwise changes
nothing: neither what a call returns nor what it raises.
-/

namespace PyKrige
noncomputable section
open Spec

/-! ### `anisotropy_scaling`, `anisotropy_angle` with geographic coordinates -/

/-- A constructor call with geographic coordinates. -/
theorem C83_geographic {n : ℕ} (env : Env) (x y z : Fin n → ℝ) (args : OKArgs) (h : args.coordinatesType = "geographic")
    (scaling angle : ℝ) :
    OK.create env x y z { args with anisotropyScaling := scaling, anisotropyAngle := angle } = OK.create env x y z args := by
  unfold OK.create
  dsimp only
  cases hv : args.variogramModel with
  | gstools m => rfl
  | name nm =>
    have hset : ∀ sc an, OK.setupCoordinates x y "geographic" sc an = .ok (0, 0, 1, 0, fun i => ![x i, y i]) := by
      intro sc an
      unfold OK.setupCoordinates
      rw [if_neg (by decide), if_pos rfl]
    simp only [OK.resolveModel, py_ok_bind, h, hset]

theorem reAniso_geographic {n : ℕ} {s : OK n} (h : s.coordinatesType = "geographic") (hx : s.X_ADJUSTED = s.X_ORIG)
    (hy : s.Y_ADJUSTED = s.Y_ORIG) (hs : s.anisotropyScaling = 1) (ha : s.anisotropyAngle = 0) (scaling angle : ℝ) :
    s.reAniso scaling angle = s := by
  unfold OK.reAniso
  split_ifs with h1 h2
  · rw [h] at h2; exact absurd h2 (by decide)
  · clear h1 h2
    cases s
    simp_all
  · rfl

/-- What stays true of an object with geographic coordinates. -/
def OK.Unmoved {n : ℕ} (s : OK n) : Prop :=
  s.coordinatesType = "geographic" ∧ s.X_ADJUSTED = s.X_ORIG ∧ s.Y_ADJUSTED = s.Y_ORIG ∧ s.anisotropyScaling = 1 ∧
    s.anisotropyAngle = 0

theorem OK.Unmoved.update {n : ℕ} (env : Env) {s : OK n} (h : s.Unmoved) (u : OKUpdate) :
    (OK.update env s u).2.Unmoved ∧ ∀ scaling angle,
      OK.update env s { u with anisotropyScaling := scaling, anisotropyAngle := angle } = OK.update env s u := by
  have hr : ∀ vm m f fn sc an,
      OK.reAniso { s with variogramModel := vm, model := m, variogramFunction := f, functionName := fn } sc an =
        { s with variogramModel := vm, model := m, variogramFunction := f, functionName := fn } :=
    fun vm m f fn sc an => reAniso_geographic
      (s := { s with variogramModel := vm, model := m, variogramFunction := f, functionName := fn }) h.1 h.2.1 h.2.2.1 h.2.2.2.1 h.2.2.2.2 sc an
  constructor
  · unfold OK.update
    dsimp only
    simp only [hr]
    repeat' split
    all_goals exact h
  · intro scaling angle
    unfold OK.update
    dsimp only
    cases hv : u.variogramModel with
    | gstools m => rfl
    | name nm =>
      simp only [OK.resolveModel]
      simp only [hr]

/-- A change of the variogram of an object with geographic coordinates, after any earlier calls. -/
theorem C83_geographic_update {n : ℕ} {env : Env} {x y z : Fin n → ℝ} {args : OKArgs} {s : OK n}
    (hc : OK.create env x y z args = .ok s) (h : args.coordinatesType = "geographic")
    (calls : List (Call OKUpdate ExecArgs)) (u : OKUpdate) (scaling angle : ℝ) :
    OK.update env (s.run env calls).2 { u with anisotropyScaling := scaling, anisotropyAngle := angle } =
      OK.update env (s.run env calls).2 u := by
  have h0 : s.Unmoved := by
    have hp := OK.create_placed hc
    have hct : s.coordinatesType = "geographic" := (OK.create_fields hc).2.2.2.2.1.trans h
    obtain ⟨a, b, c, d⟩ := hp.1.geographic hct
    exact ⟨hct, a, b, c, d⟩
  have h1 : (s.run env calls).2.Unmoved := runCalls_inv OK.Unmoved (fun s u hs => (hs.update env u).1) calls s h0
  exact (h1.update env u).2 scaling angle

/-! ### `drift_terms`, and the arguments of drift terms that are not requested -/

/-- The names of the drift terms. -/
def termNames : List String := ["regional_linear", "external_Z", "point_log", "specified", "functional"]

/-- Of `drift_terms` only matters which of the known names it contains: order, repetitions and unknown words (a misspelt
name, for instance) have no effect. -/
theorem C83_terms_uk {n : ℕ} (env : Env) (x y z : Fin n → ℝ) (args : UKArgs) (terms : List String)
    (h : ∀ t ∈ termNames, t ∈ terms ↔ t ∈ args.driftTerms) :
    UK.create env x y z { args with driftTerms := terms } = UK.create env x y z args := by
  simp only [termNames, List.mem_cons, List.not_mem_nil, or_false, forall_eq_or_imp, forall_eq] at h
  unfold UK.create
  simp only [setupExternalZ, setupPointLog, setupSpecifiedTerm, setupFunctionalTerm, setupExternal, h.1, h.2.1, h.2.2.1, h.2.2.2.1, h.2.2.2.2]

/-- `specified_drift` without the term. -/
theorem C83_specified_uk {n : ℕ} (env : Env) (x y z : Fin n → ℝ) (args : UKArgs) (h : "specified" ∉ args.driftTerms)
    (d : ListArg (List ℝ)) : UK.create env x y z { args with specifiedDrift := d } = UK.create env x y z args := by
  unfold UK.create
  simp only [setupSpecifiedTerm, if_neg h, setupExternalZ, setupPointLog, setupExternal]

/-- `functional_drift` without the term. -/
theorem C83_functional_uk {n : ℕ} (env : Env) (x y z : Fin n → ℝ) (args : UKArgs) (h : "functional" ∉ args.driftTerms)
    (d : ListArg (ℝ → ℝ → ℝ)) : UK.create env x y z { args with functionalDrift := d } = UK.create env x y z args := by
  unfold UK.create
  simp only [setupFunctionalTerm, if_neg h, setupExternalZ, setupPointLog, setupExternal]

/-- Of `drift_terms` only matters which of the known names it contains: order, repetitions and unknown words (a misspelt
name, for instance) have no effect. -/
theorem C83_terms_uk3d {n : ℕ} (env : Env) (x y z val : Fin n → ℝ) (args : UK3DArgs) (terms : List String)
    (h : ∀ t ∈ ["regional_linear", "specified", "functional"], t ∈ terms ↔ t ∈ args.driftTerms) :
    UK3D.create env x y z val { args with driftTerms := terms } = UK3D.create env x y z val args := by
  simp only [termNames, List.mem_cons, List.not_mem_nil, or_false, forall_eq_or_imp, forall_eq] at h
  unfold UK3D.create
  simp only [setupSpecifiedTerm, setupFunctionalTerm, h.1, h.2.1, h.2.2]

/-- `specified_drift` without the term. -/
theorem C83_specified_uk3d {n : ℕ} (env : Env) (x y z val : Fin n → ℝ) (args : UK3DArgs) (h : "specified" ∉ args.driftTerms)
    (d : ListArg (List ℝ)) : UK3D.create env x y z val { args with specifiedDrift := d } = UK3D.create env x y z val args := by
  unfold UK3D.create
  simp only [setupSpecifiedTerm, if_neg h, setupExternalZ, setupPointLog, setupExternal]

/-- `functional_drift` without the term. -/
theorem C83_functional_uk3d {n : ℕ} (env : Env) (x y z val : Fin n → ℝ) (args : UK3DArgs) (h : "functional" ∉ args.driftTerms)
    (d : ListArg (ℝ → ℝ → ℝ → ℝ)) : UK3D.create env x y z val { args with functionalDrift := d } = UK3D.create env x y z val args := by
  unfold UK3D.create
  simp only [setupFunctionalTerm, if_neg h, setupExternalZ, setupPointLog, setupExternal]

/-- `point_drift` without the term. -/
theorem C83_wells_uk {n : ℕ} (env : Env) (x y z : Fin n → ℝ) (args : UKArgs) (h : "point_log" ∉ args.driftTerms)
    (d : Option (List (ℝ × ℝ × ℝ))) (b : Bool) :
    UK.create env x y z { args with pointDrift := d, pointDriftInt := b } = UK.create env x y z args := by
  unfold UK.create
  simp only [setupPointLog, if_neg h, setupExternalZ, setupExternal]

/-- `external_drift` and its coordinates without the term. -/
theorem C83_external_uk {n : ℕ} (env : Env) (x y z : Fin n → ℝ) (args : UKArgs) (h : "external_Z" ∉ args.driftTerms)
    (d : Option ExtArg) (dx dy : Option (List ℝ)) :
    UK.create env x y z { args with externalDrift := d, externalDriftX := dx, externalDriftY := dy } =
      UK.create env x y z args := by
  unfold UK.create
  simp only [setupExternalZ, if_neg h, setupPointLog]

/-- `specified_drift_arrays` of `execute`, for an object without the term, after any earlier calls. -/
theorem C83_arrays_uk {n : ℕ} {env : Env} {x y z : Fin n → ℝ} {args : UKArgs} {s : UK n}
    (hc : UK.create env x y z args = .ok s) (h : "specified" ∉ args.driftTerms)
    (calls : List (Call OKUpdate UKExecArgs)) (ea : UKExecArgs) (arrays : SpecArg) :
    UK.execute (s.run env calls).2 { ea with spec := arrays } = UK.execute (s.run env calls).2 ea := by
  have h0 : s.specified = none := by
    obtain ⟨-, _, _, _, _, _, _, _, _, _, _, _, _, _, _, _, _, _, spec, _, -, -, -, -, -, -, -, -, -, -, hs, -, rfl⟩ := UK.create_ok hc
    rw [setupSpecifiedTerm, if_neg h] at hs
    exact (Except.ok.inj hs).symm
  have h1 : (s.run env calls).2.specified = none := by
    refine runCalls_inv (fun t : UK n => t.specified = none) (fun t u ht => ?_) calls s h0
    have hre : ∀ (t : UK n) (sc an : ℝ), (t.reAniso sc an).specified = t.specified := by
      intro t sc an
      unfold UK.reAniso
      split_ifs <;> rfl
    show (UK.update env t u).2.specified = none
    unfold UK.update
    dsimp only
    repeat' split
    all_goals first | exact ht | exact (hre _ _ _).trans ht
  unfold UK.execute UK.executeW
  simp only [UK.specGrids, h1]

/-- `specified_drift_arrays` of `execute`, for an object without the term, after any earlier calls. -/
theorem C83_arrays_uk3d {n : ℕ} {env : Env} {x y z val : Fin n → ℝ} {args : UK3DArgs} {s : UK3D n}
    (hc : UK3D.create env x y z val args = .ok s) (h : "specified" ∉ args.driftTerms)
    (calls : List (Call Update3D UK3DExecArgs)) (ea : UK3DExecArgs) (arrays : SpecArg3) :
    UK3D.execute (s.run env calls).2 { ea with spec := arrays } = UK3D.execute (s.run env calls).2 ea := by
  have h0 : s.specified = none := by
    obtain ⟨-, _, _, _, _, _, _, _, _, _, _, _, _, _, _, _, spec, _, -, -, -, -, -, -, -, -, -, hs, -, rfl⟩ := UK3D.create_ok hc
    rw [setupSpecifiedTerm, if_neg h] at hs
    exact (Except.ok.inj hs).symm
  have h1 : (s.run env calls).2.specified = none := by
    refine runCalls_inv (fun t : UK3D n => t.specified = none) (fun t u ht => ?_) calls s h0
    have hre : ∀ (t : UK3D n) (an : Aniso3), (t.reAniso an).specified = t.specified := by
      intro t an
      unfold UK3D.reAniso
      split_ifs <;> rfl
    show (UK3D.update env t u).2.specified = none
    unfold UK3D.update
    dsimp only
    repeat' split
    all_goals first | exact ht | exact (hre _ _).trans ht
  unfold UK3D.execute UK3D.executeW
  simp only [UK3D.specGrids, h1]

/-! ### `mask` without `style='masked'` -/

theorem queryPoints_unmasked {ea : ExecArgs} (h : ea.style ≠ "masked") (m : Option Mask2) :
    queryPoints { ea with mask := m } = queryPoints ea := by
  unfold queryPoints
  simp only [if_neg h]

theorem queryPoints3_unmasked {ea : ExecArgs3} (h : ea.style ≠ "masked") (m : Option Mask3) :
    queryPoints3 { ea with mask := m } = queryPoints3 ea := by
  unfold queryPoints3
  simp only [if_neg h]

theorem C83_mask_ok {n : ℕ} (env : Env) (s : OK n) (ea : ExecArgs) (h : ea.style ≠ "masked") (m : Option Mask2) :
    OK.execute env s { ea with mask := m } = OK.execute env s ea := by
  unfold OK.execute
  rw [queryPoints_unmasked h]
  rfl

theorem C83_mask_ok3d {n : ℕ} (env : Env) (s : OK3D n) (ea : ExecArgs3) (h : ea.style ≠ "masked") (m : Option Mask3) :
    OK3D.execute env s { ea with mask := m } = OK3D.execute env s ea := by
  unfold OK3D.execute
  rw [queryPoints3_unmasked h]
  rfl

theorem C83_mask_uk {n : ℕ} (s : UK n) (ea : UKExecArgs) (h : ea.toExec.style ≠ "masked") (m : Option Mask2) :
    UK.execute s { ea with toExec := { ea.toExec with mask := m } } = UK.execute s ea := by
  unfold UK.execute UK.executeW
  dsimp only
  rw [queryPoints_unmasked h]
  rfl

theorem C83_mask_uk3d {n : ℕ} (s : UK3D n) (ea : UK3DExecArgs) (h : ea.toExec.style ≠ "masked") (m : Option Mask3) :
    UK3D.execute s { ea with toExec := { ea.toExec with mask := m } } = UK3D.execute s ea := by
  unfold UK3D.execute UK3D.executeW
  dsimp only
  rw [queryPoints3_unmasked h]
  rfl

/-! ### `variogram_function` without the model 'custom'; arguments that a GSTools model replaces -/

theorem chooseFunction_ignores {name : String} (h : name ≠ "custom") (f g : FunArg) :
    chooseFunction name f = chooseFunction name g := by
  unfold chooseFunction
  simp only [if_neg h]

theorem makeParams_none {name : String} {p : ParamArg} (hp : p ≠ .none) {vp : Option (List ℝ)}
    (h : makeVariogramParameterList name p = .ok vp) : ∃ l, vp = some l := by
  cases vp with
  | some l => exact ⟨l, rfl⟩
  | none =>
    exfalso
    unfold makeVariogramParameterList at h
    cases p with
    | none => exact hp rfl
    | other => cases h
    | dict d =>
      dsimp only at h
      repeat' split at h
      all_goals cases h
    | list l =>
      dsimp only at h
      split_ifs at h <;> try cases h
      rename_i h1
      simp only [py_bind_eq_ok, py_pure] at h
      obtain ⟨_, -, _, -, _, -, h⟩ := h
      cases h

theorem initialize_weight {n m : ℕ} (env : Env) (X : Fin n → Fin m → ℝ) (y : Fin n → ℝ) (name : String) (l : List ℝ)
    (f : VFun) (nlags : ℕ) (w w' : Bool) (ct : String) :
    initializeVariogramModel env X y name (some l) f nlags w ct = initializeVariogramModel env X y name (some l) f nlags w' ct := rfl

theorem C83_function_ok {n : ℕ} (env : Env) (x y z : Fin n → ℝ) (args : OKArgs) (model : String)
    (h : args.variogramModel = .name model) (hm : model ≠ "custom") (g : FunArg) :
    OK.create env x y z { args with variogramFunction := g } = OK.create env x y z args := by
  unfold OK.create
  simp only [h, OK.resolveModel, py_ok_bind, chooseFunction_ignores hm g args.variogramFunction]
  try rfl

theorem C83_gstools_ok {n : ℕ} (env : Env) (x y z : Fin n → ℝ) (args : OKArgs) (model : GsModel)
    (h : args.variogramModel = .gstools model) (g : FunArg) (p : ParamArg) (b : Bool) (scaling angle : ℝ) :
    OK.create env x y z { args with variogramFunction := g, params := p, paramsAllInt := b, anisotropyScaling := scaling, anisotropyAngle := angle } = OK.create env x y z args := by
  unfold OK.create
  dsimp only
  by_cases hpt : args.pseudoInvType ∉ ["pinv", "pinvh"]
  · rw [if_pos hpt, if_pos hpt]; rfl
  rw [if_neg hpt, if_neg hpt]
  cases hex : args.exactValues with
  | notBool => rfl
  | bool eb =>
  simp only [py_pure, py_ok_bind, h]
  have hr : OK.resolveModel env args.coordinatesType (.gstools model) g p scaling angle =
      OK.resolveModel env args.coordinatesType (.gstools model) args.variogramFunction args.params args.anisotropyScaling
        args.anisotropyAngle := rfl
  rw [hr]
  cases hres : OK.resolveModel env args.coordinatesType (.gstools model) args.variogramFunction args.params
    args.anisotropyScaling args.anisotropyAngle with
  | error e => rfl
  | ok r =>
  have hl : r.2.2.2.1 = .list [] ∧ r.1 = "custom" := by
    unfold OK.resolveModel at hres
    simp only [py_bind_eq_ok] at hres
    obtain ⟨_, -, hres⟩ := hres
    split_ifs at hres <;> cases hres
    exact ⟨rfl, rfl⟩
  obtain ⟨name, m, fArg, pArg, sc, an⟩ := r
  obtain ⟨rfl, rfl⟩ := hl
  simp only [py_ok_bind]
  cases chooseFunction "custom" fArg with
  | error e => rfl
  | ok r =>
  simp only [py_ok_bind]
  cases OK.setupCoordinates x y args.coordinatesType sc an with
  | error e => rfl
  | ok r2 =>
  simp only [py_ok_bind, show makeVariogramParameterList "custom" (.list []) = .ok (some []) from rfl]
  cases hi : initializeVariogramModel env r2.2.2.2.2 z "custom" (some []) r.1 args.nlags args.weight args.coordinatesType with
  | error e => rfl
  | ok r3 =>
  obtain ⟨lags, ps⟩ := r3
  have := initialize_params hi rfl
  subst this
  simp only [py_ok_bind, intParams, List.isEmpty_nil, Bool.not_true, Bool.and_false]

theorem C83_function_ok3d {n : ℕ} (env : Env) (x y z val : Fin n → ℝ) (args : OK3DArgs) (model : String)
    (h : args.variogramModel = .name model) (hm : model ≠ "custom") (g : FunArg) :
    OK3D.create env x y z val { args with variogramFunction := g } = OK3D.create env x y z val args := by
  unfold OK3D.create
  simp only [h, OK3D.resolveModel, py_ok_bind, chooseFunction_ignores hm g args.variogramFunction]
  try rfl

theorem C83_gstools_ok3d {n : ℕ} (env : Env) (x y z val : Fin n → ℝ) (args : OK3DArgs) (model : GsModel)
    (h : args.variogramModel = .gstools model) (g : FunArg) (p : ParamArg) (an : Aniso3) :
    OK3D.create env x y z val { args with variogramFunction := g, params := p, aniso := an } = OK3D.create env x y z val args := by
  unfold OK3D.create
  simp only [h, OK3D.resolveModel]
  try rfl

theorem C83_function_uk {n : ℕ} (env : Env) (x y z : Fin n → ℝ) (args : UKArgs) (model : String)
    (h : args.variogramModel = .name model) (hm : model ≠ "custom") (g : FunArg) :
    UK.create env x y z { args with variogramFunction := g } = UK.create env x y z args := by
  unfold UK.create
  simp only [h, UK.resolveModel, py_ok_bind, chooseFunction_ignores hm g args.variogramFunction]
  try rfl

theorem C83_gstools_uk {n : ℕ} (env : Env) (x y z : Fin n → ℝ) (args : UKArgs) (model : GsModel)
    (h : args.variogramModel = .gstools model) (g : FunArg) (p : ParamArg) (scaling angle : ℝ) :
    UK.create env x y z { args with variogramFunction := g, params := p, anisotropyScaling := scaling, anisotropyAngle := angle } = UK.create env x y z args := by
  unfold UK.create
  simp only [h, UK.resolveModel]
  try rfl

theorem C83_function_uk3d {n : ℕ} (env : Env) (x y z val : Fin n → ℝ) (args : UK3DArgs) (model : String)
    (h : args.variogramModel = .name model) (hm : model ≠ "custom") (g : FunArg) :
    UK3D.create env x y z val { args with variogramFunction := g } = UK3D.create env x y z val args := by
  unfold UK3D.create
  simp only [h, OK3D.resolveModel, py_ok_bind, chooseFunction_ignores hm g args.variogramFunction]
  try rfl

theorem C83_gstools_uk3d {n : ℕ} (env : Env) (x y z val : Fin n → ℝ) (args : UK3DArgs) (model : GsModel)
    (h : args.variogramModel = .gstools model) (g : FunArg) (p : ParamArg) (an : Aniso3) :
    UK3D.create env x y z val { args with variogramFunction := g, params := p, aniso := an } = UK3D.create env x y z val args := by
  unfold UK3D.create
  simp only [h, OK3D.resolveModel]
  try rfl

theorem py_bind_congr {α β : Type} {x : Py α} {f g : α → Py β} (h : ∀ a, x = .ok a → f a = g a) :
    (x >>= f) = (x >>= g) := by
  cases x with
  | error e => rfl
  | ok a => exact h a rfl

/-! ### `weight` with given parameters or a GSTools model: nothing is fitted -/

theorem C83_weight_ok {n : ℕ} (env : Env) (x y z : Fin n → ℝ) (args : OKArgs)
    (h : args.params ≠ .none ∨ ∃ m, args.variogramModel = .gstools m) (w : Bool) :
    OK.create env x y z { args with weight := w } = OK.create env x y z args := by
  unfold OK.create
  dsimp only
  refine if_congr Iff.rfl (Eq.trans (b := Except.error .valueError) rfl rfl) ?_
  cases args.exactValues with
  | notBool => exact Eq.trans (b := Except.error .valueError) rfl rfl
  | bool b =>
  refine py_bind_congr fun eb _ => ?_
  refine py_bind_congr fun r hres => ?_
  have hl : r.2.2.2.1 ≠ .none := by
    unfold OK.resolveModel at hres
    cases hv : args.variogramModel with
    | name nm =>
      rw [hv] at hres
      cases hres
      rcases h with h | ⟨m, h⟩
      · exact h
      · rw [hv] at h; cases h
    | gstools m =>
      rw [hv] at hres
      simp only [py_bind_eq_ok] at hres
      obtain ⟨_, -, hres⟩ := hres
      split_ifs at hres <;> cases hres
      simp
  refine py_bind_congr fun q _ => ?_
  refine py_bind_congr fun c0 _ => ?_
  refine py_bind_congr fun vp hp => ?_
  obtain ⟨l, rfl⟩ := makeParams_none hl hp
  rw [initialize_weight (w := w) (w' := args.weight)]

theorem C83_weight_ok3d {n : ℕ} (env : Env) (x y z val : Fin n → ℝ) (args : OK3DArgs)
    (h : args.params ≠ .none ∨ ∃ m, args.variogramModel = .gstools m) (w : Bool) :
    OK3D.create env x y z val { args with weight := w } = OK3D.create env x y z val args := by
  unfold OK3D.create
  dsimp only
  refine if_congr Iff.rfl (Eq.trans (b := Except.error .valueError) rfl rfl) ?_
  cases args.exactValues with
  | notBool => exact Eq.trans (b := Except.error .valueError) rfl rfl
  | bool b =>
  refine py_bind_congr fun eb _ => ?_
  refine py_bind_congr fun r hres => ?_
  have hl : r.2.2.2.1 ≠ .none := by
    unfold OK3D.resolveModel at hres
    cases hv : args.variogramModel with
    | name nm =>
      rw [hv] at hres
      cases hres
      rcases h with h | ⟨m, h⟩
      · exact h
      · rw [hv] at h; cases h
    | gstools m =>
      rw [hv] at hres
      simp only [py_bind_eq_ok] at hres
      obtain ⟨_, -, hres⟩ := hres
      split_ifs at hres <;> cases hres
      simp
  refine py_bind_congr fun q _ => ?_
  refine py_bind_congr fun c0 _ => ?_
  refine py_bind_congr fun c1 _ => ?_
  refine py_bind_congr fun c2 _ => ?_
  refine py_bind_congr fun vp hp => ?_
  obtain ⟨l, rfl⟩ := makeParams_none hl hp
  rw [initialize_weight (w := w) (w' := args.weight)]

theorem C83_weight_uk {n : ℕ} (env : Env) (x y z : Fin n → ℝ) (args : UKArgs)
    (h : args.params ≠ .none ∨ ∃ m, args.variogramModel = .gstools m) (w : Bool) :
    UK.create env x y z { args with weight := w } = UK.create env x y z args := by
  unfold UK.create
  dsimp only
  refine if_congr Iff.rfl (Eq.trans (b := Except.error .valueError) rfl rfl) ?_
  cases args.exactValues with
  | notBool => exact Eq.trans (b := Except.error .valueError) rfl rfl
  | bool b =>
  refine py_bind_congr fun eb _ => ?_
  refine py_bind_congr fun r hres => ?_
  have hl : r.2.2.2.1 ≠ .none := by
    unfold UK.resolveModel at hres
    cases hv : args.variogramModel with
    | name nm =>
      rw [hv] at hres
      cases hres
      rcases h with h | ⟨m, h⟩
      · exact h
      · rw [hv] at h; cases h
    | gstools m =>
      rw [hv] at hres
      simp only [py_bind_eq_ok] at hres
      obtain ⟨_, -, hres⟩ := hres
      split_ifs at hres <;> cases hres
      simp
  refine py_bind_congr fun q _ => ?_
  refine py_bind_congr fun c0 _ => ?_
  refine py_bind_congr fun c1 _ => ?_
  refine py_bind_congr fun vp hp => ?_
  obtain ⟨l, rfl⟩ := makeParams_none hl hp
  rw [initialize_weight (w := w) (w' := args.weight)]
  rfl
theorem C83_weight_uk3d {n : ℕ} (env : Env) (x y z val : Fin n → ℝ) (args : UK3DArgs)
    (h : args.params ≠ .none ∨ ∃ m, args.variogramModel = .gstools m) (w : Bool) :
    UK3D.create env x y z val { args with weight := w } = UK3D.create env x y z val args := by
  unfold UK3D.create
  dsimp only
  refine if_congr Iff.rfl (Eq.trans (b := Except.error .valueError) rfl rfl) ?_
  cases args.exactValues with
  | notBool => exact Eq.trans (b := Except.error .valueError) rfl rfl
  | bool b =>
  refine py_bind_congr fun eb _ => ?_
  refine py_bind_congr fun r hres => ?_
  have hl : r.2.2.2.1 ≠ .none := by
    unfold OK3D.resolveModel at hres
    cases hv : args.variogramModel with
    | name nm =>
      rw [hv] at hres
      cases hres
      rcases h with h | ⟨m, h⟩
      · exact h
      · rw [hv] at h; cases h
    | gstools m =>
      rw [hv] at hres
      simp only [py_bind_eq_ok] at hres
      obtain ⟨_, -, hres⟩ := hres
      split_ifs at hres <;> cases hres
      simp
  refine py_bind_congr fun q _ => ?_
  refine py_bind_congr fun c0 _ => ?_
  refine py_bind_congr fun c1 _ => ?_
  refine py_bind_congr fun c2 _ => ?_
  refine py_bind_congr fun vp hp => ?_
  obtain ⟨l, rfl⟩ := makeParams_none hl hp
  rw [initialize_weight (w := w) (w' := args.weight)]

/-! ### Examples

The calls below return an object or a grid, so neither side of the equations is an exception. -/

section Examples
open Demo

/-- Geographic coordinates: a scaling and an angle change nothing, at construction and later. -/
example (z : Fin 3 → ℝ) : ∃ s, OK.create stdEnv 0 0 z { any "spherical" [3, 2, 1] with pseudoInv := true, coordinatesType := "geographic", anisotropyScaling := 5, anisotropyAngle := 30 } = .ok s ∧
    OK.update stdEnv s { variogramModel := .name "linear", anisotropyScaling := 7, anisotropyAngle := 12 } = OK.update stdEnv s { variogramModel := .name "linear" } := by
  obtain ⟨s, h, -⟩ := C39_create_2d stdEnv (by norm_num) (0 : Fin 3 → ℝ) 0 z { any "spherical" [3, 2, 1] with pseudoInv := true, coordinatesType := "geographic" } rfl
    (by simp [any]) rfl (.inr rfl) rfl rfl sph_valid
  exact ⟨s, (C83_geographic stdEnv 0 0 z { any "spherical" [3, 2, 1] with pseudoInv := true, coordinatesType := "geographic" } rfl 5 30).trans h,
    C83_geographic_update h rfl [] { variogramModel := .name "linear" } 7 12⟩

/-- A misspelt drift term is ignored. -/
example (z : Fin 4 → ℝ) : UK.create stdEnv x4 y4 z { B2 with driftTerms := ["specifed", "regional_linear", "regional_linear"] } = .ok (U2 z) :=
  (C83_terms_uk stdEnv x4 y4 z B2 _ (by simp [termNames, uany])).trans (U2_ok z)

example (z : Fin 4 → ℝ) : UK3D.create stdEnv x4 y4 z4 z { B3 with driftTerms := ["Specified", "regional_linear"] } = .ok (U3 z) :=
  (C83_terms_uk3d stdEnv x4 y4 z4 z B3 _ (by simp [uany3])).trans (U3_ok z)

/-- Arguments of terms that are not requested, even malformed ones. -/
example (z : Fin 4 → ℝ) : UK.create stdEnv x4 y4 z { B2 with specifiedDrift := .list [[1, 2]] } = .ok (U2 z) :=
  (C83_specified_uk stdEnv x4 y4 z B2 (by simp [uany]) _).trans (U2_ok z)

example (z : Fin 4 → ℝ) : UK.create stdEnv x4 y4 z { B2 with functionalDrift := .notList } = .ok (U2 z) :=
  (C83_functional_uk stdEnv x4 y4 z B2 (by simp [uany]) _).trans (U2_ok z)

example (z : Fin 4 → ℝ) : UK.create stdEnv x4 y4 z { B2 with pointDrift := some [(0, 0, 1)], pointDriftInt := true } = .ok (U2 z) :=
  (C83_wells_uk stdEnv x4 y4 z B2 (by simp [uany]) _ _).trans (U2_ok z)

example (z : Fin 4 → ℝ) (e : ExtArg) : UK.create stdEnv x4 y4 z { B2 with externalDrift := some e, externalDriftX := some [1], externalDriftY := none } = .ok (U2 z) :=
  (C83_external_uk stdEnv x4 y4 z B2 (by simp [uany]) _ _ _).trans (U2_ok z)

example (z : Fin 4 → ℝ) : UK3D.create stdEnv x4 y4 z4 z { B3 with specifiedDrift := .notList } = .ok (U3 z) :=
  (C83_specified_uk3d stdEnv x4 y4 z4 z B3 (by simp [uany3]) _).trans (U3_ok z)

example (z : Fin 4 → ℝ) : UK3D.create stdEnv x4 y4 z4 z { B3 with functionalDrift := .notList } = .ok (U3 z) :=
  (C83_functional_uk3d stdEnv x4 y4 z4 z B3 (by simp [uany3]) _).trans (U3_ok z)

example (z : Fin 4 → ℝ) (ea : UKExecArgs) : UK.execute (U2 z) { ea with spec := .notList } = UK.execute (U2 z) ea :=
  C83_arrays_uk (U2_ok z) (by simp [uany]) [] ea .notList

example (z : Fin 4 → ℝ) (ea : UK3DExecArgs) : UK3D.execute (U3 z) { ea with spec := .notList } = UK3D.execute (U3 z) ea :=
  C83_arrays_uk3d (U3_ok z) (by simp [uany3]) [] ea .notList

/-- A mask of the wrong shape with `style='points'`. -/
example (z : Fin 4 → ℝ) (m : Mask2) := C83_mask_ok stdEnv (S2 z) (pointsCall L2 "C") (by simp [pointsCall]) (some m)
example (z : Fin 4 → ℝ) (m : Mask3) := C83_mask_ok3d stdEnv (S3 z) (pointsCall3 L3 "loop") (by simp [pointsCall3]) (some m)
example (z : Fin 4 → ℝ) (m : Mask2) := C83_mask_uk (U2 z) { toExec := pointsCall L2 "loop" } (by simp [pointsCall]) (some m)
example (z : Fin 4 → ℝ) (m : Mask3) := C83_mask_uk3d (U3 z) { toExec := pointsCall3 L3 "loop" } (by simp [pointsCall3]) (some m)

/-- A variogram function together with the model 'spherical'. -/
example (z : Fin 4 → ℝ) (g : FunArg) : OK.create stdEnv x4 y4 z { A2 with variogramFunction := g } = .ok (S2 z) :=
  (C83_function_ok stdEnv x4 y4 z A2 "spherical" rfl (by decide) g).trans (S2_ok z)
example (z : Fin 4 → ℝ) (g : FunArg) : OK3D.create stdEnv x4 y4 z4 z { A3 with variogramFunction := g } = .ok (S3 z) :=
  (C83_function_ok3d stdEnv x4 y4 z4 z A3 "spherical" rfl (by decide) g).trans (S3_ok z)
example (z : Fin 4 → ℝ) (g : FunArg) : UK.create stdEnv x4 y4 z { B2 with variogramFunction := g } = .ok (U2 z) :=
  (C83_function_uk stdEnv x4 y4 z B2 "spherical" rfl (by decide) g).trans (U2_ok z)
example (z : Fin 4 → ℝ) (g : FunArg) : UK3D.create stdEnv x4 y4 z4 z { B3 with variogramFunction := g } = .ok (U3 z) :=
  (C83_function_uk3d stdEnv x4 y4 z4 z B3 "spherical" rfl (by decide) g).trans (U3_ok z)

/-- Given parameters: `weight` has no effect. -/
example (z : Fin 4 → ℝ) : OK.create stdEnv x4 y4 z { A2 with weight := true } = .ok (S2 z) :=
  (C83_weight_ok stdEnv x4 y4 z A2 (.inl (by simp [any])) true).trans (S2_ok z)
example (z : Fin 4 → ℝ) : OK3D.create stdEnv x4 y4 z4 z { A3 with weight := true } = .ok (S3 z) :=
  (C83_weight_ok3d stdEnv x4 y4 z4 z A3 (.inl (by simp [any3])) true).trans (S3_ok z)
example (z : Fin 4 → ℝ) : UK.create stdEnv x4 y4 z { B2 with weight := true } = .ok (U2 z) :=
  (C83_weight_uk stdEnv x4 y4 z B2 (.inl (by simp [uany])) true).trans (U2_ok z)
example (z : Fin 4 → ℝ) : UK3D.create stdEnv x4 y4 z4 z { B3 with weight := true } = .ok (U3 z) :=
  (C83_weight_uk3d stdEnv x4 y4 z4 z B3 (.inl (by simp [uany3])) true).trans (U3_ok z)

/-- A GSTools model: parameters, a function and an anisotropy passed beside it change nothing. -/
example (g : FunArg) : ∃ s, OK.create gsEnv X O X { variogramModel := .gstools (gs 2 false), variogramFunction := g, params := .list [1, 2], anisotropyScaling := 3, anisotropyAngle := 45 } = .ok s := by
  obtain ⟨t, ht⟩ := ok_custom X (gs 2 false) rfl rfl
  refine ⟨{ t with model := some (gs 2 false) }, ?_⟩
  refine (C83_gstools_ok gsEnv X O X { variogramModel := .gstools (gs 2 false) } (gs 2 false) rfl g (.list [1, 2]) false 3 45).trans ?_
  rw [OK.create_gstools rfl (by refine ⟨gs_usable, by decide, ?_⟩; rintro ⟨h, -⟩; cases h), ht]
  rfl
example (v : Fin 4 → ℝ) (g : FunArg) (an : Aniso3) := C83_gstools_ok3d gsEnv x4 y4 z4 v { variogramModel := .gstools (gs 3 false) } (gs 3 false) rfl g (.list [1, 2]) an
example (v : Fin 4 → ℝ) (g : FunArg) := C83_gstools_uk gsEnv x4 y4 v { variogramModel := .gstools (gs 2 false) } (gs 2 false) rfl g (.list [1, 2]) 3 45
example (v : Fin 4 → ℝ) (g : FunArg) (an : Aniso3) := C83_gstools_uk3d gsEnv x4 y4 z4 v { variogramModel := .gstools (gs 3 false) } (gs 3 false) rfl g (.list [1, 2]) an

end Examples

end
end PyKrige
