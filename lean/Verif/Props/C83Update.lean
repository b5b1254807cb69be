import Verif.Props.C83

/-!
# C83: arguments of `update_variogram_model` that do not apply
-/

namespace PyKrige
noncomputable section
open Spec

/-- `variogram_function` without the model 'custom'. -/
theorem C83_function_update_ok {n : ℕ} (env : Env) (s : OK n) (u : OKUpdate) (model : String)
    (h : u.variogramModel = .name model) (hm : model ≠ "custom") (g : FunArg) :
    OK.update env s { u with variogramFunction := g } = OK.update env s u := by
  unfold OK.update
  simp only [h, OK.resolveModel, chooseFunction_ignores hm g u.variogramFunction]

/-- What a GSTools model replaces. -/
theorem C83_gstools_update_ok {n : ℕ} (env : Env) (s : OK n) (u : OKUpdate) (model : GsModel)
    (h : u.variogramModel = .gstools model) (g : FunArg) (p : ParamArg) (scaling angle : ℝ) :
    OK.update env s { u with variogramFunction := g, params := p, anisotropyScaling := scaling, anisotropyAngle := angle } = OK.update env s u := by
  unfold OK.update
  simp only [h, OK.resolveModel]

/-- `weight` with given parameters or a GSTools model: nothing is fitted. -/
theorem C83_weight_update_ok {n : ℕ} (env : Env) (s : OK n) (u : OKUpdate)
    (h : u.params ≠ .none ∨ ∃ m, u.variogramModel = .gstools m) (w : Bool) :
    OK.update env s { u with weight := w } = OK.update env s u := by
  unfold OK.update
  dsimp only
  cases hres : OK.resolveModel env s.coordinatesType u.variogramModel u.variogramFunction u.params u.anisotropyScaling u.anisotropyAngle with
  | error e => rfl
  | ok r =>
  have hl : r.2.2.2.1 ≠ .none := by
    unfold OK.resolveModel at hres
    cases hv : u.variogramModel with
    | name nm =>
      rw [hv] at hres
      cases hres
      rcases h with h | ⟨m, h⟩
      · exact h
      · rw [hv] at h; cases h
    | gstools m =>
      rw [hv] at hres
      simp only [py_bind_eq_ok] at hres
      obtain ⟨_, -, hres⟩ := hres
      split_ifs at hres <;> cases hres
      simp
  obtain ⟨name, m, fArg, pArg, sc, an⟩ := r
  dsimp only
  cases chooseFunction name fArg with
  | error e => rfl
  | ok q =>
  dsimp only
  cases hp : makeVariogramParameterList name pArg with
  | error e => rfl
  | ok vp =>
  obtain ⟨l, rfl⟩ := makeParams_none hl hp
  dsimp only
  simp only [initialize_weight (w := w) (w' := u.weight)]

/-- `variogram_function` without the model 'custom'. -/
theorem C83_function_update_ok3d {n : ℕ} (env : Env) (s : OK3D n) (u : Update3D) (model : String)
    (h : u.variogramModel = .name model) (hm : model ≠ "custom") (g : FunArg) :
    OK3D.update env s { u with variogramFunction := g } = OK3D.update env s u := by
  unfold OK3D.update
  simp only [h, OK3D.resolveModel, chooseFunction_ignores hm g u.variogramFunction]

/-- What a GSTools model replaces. -/
theorem C83_gstools_update_ok3d {n : ℕ} (env : Env) (s : OK3D n) (u : Update3D) (model : GsModel)
    (h : u.variogramModel = .gstools model) (g : FunArg) (p : ParamArg) (an : Aniso3) :
    OK3D.update env s { u with variogramFunction := g, params := p, aniso := an } = OK3D.update env s u := by
  unfold OK3D.update
  simp only [h, OK3D.resolveModel]

/-- `weight` with given parameters or a GSTools model: nothing is fitted. -/
theorem C83_weight_update_ok3d {n : ℕ} (env : Env) (s : OK3D n) (u : Update3D)
    (h : u.params ≠ .none ∨ ∃ m, u.variogramModel = .gstools m) (w : Bool) :
    OK3D.update env s { u with weight := w } = OK3D.update env s u := by
  unfold OK3D.update
  dsimp only
  cases hres : OK3D.resolveModel env u.variogramModel u.variogramFunction u.params u.aniso with
  | error e => rfl
  | ok r =>
  have hl : r.2.2.2.1 ≠ .none := by
    unfold OK3D.resolveModel at hres
    cases hv : u.variogramModel with
    | name nm =>
      rw [hv] at hres
      cases hres
      rcases h with h | ⟨m, h⟩
      · exact h
      · rw [hv] at h; cases h
    | gstools m =>
      rw [hv] at hres
      simp only [py_bind_eq_ok] at hres
      obtain ⟨_, -, hres⟩ := hres
      split_ifs at hres <;> cases hres
      simp
  obtain ⟨name, m, fArg, pArg, an⟩ := r
  dsimp only
  cases chooseFunction name fArg with
  | error e => rfl
  | ok q =>
  dsimp only
  cases hp : makeVariogramParameterList name pArg with
  | error e => rfl
  | ok vp =>
  obtain ⟨l, rfl⟩ := makeParams_none hl hp
  dsimp only
  simp only [initialize_weight (w := w) (w' := u.weight)]

/-- `variogram_function` without the model 'custom'. -/
theorem C83_function_update_uk {n : ℕ} (env : Env) (s : UK n) (u : OKUpdate) (model : String)
    (h : u.variogramModel = .name model) (hm : model ≠ "custom") (g : FunArg) :
    UK.update env s { u with variogramFunction := g } = UK.update env s u := by
  unfold UK.update
  simp only [h, UK.resolveModel, chooseFunction_ignores hm g u.variogramFunction]

/-- What a GSTools model replaces. -/
theorem C83_gstools_update_uk {n : ℕ} (env : Env) (s : UK n) (u : OKUpdate) (model : GsModel)
    (h : u.variogramModel = .gstools model) (g : FunArg) (p : ParamArg) (scaling angle : ℝ) :
    UK.update env s { u with variogramFunction := g, params := p, anisotropyScaling := scaling, anisotropyAngle := angle } = UK.update env s u := by
  unfold UK.update
  simp only [h, UK.resolveModel]

/-- `weight` with given parameters or a GSTools model: nothing is fitted. -/
theorem C83_weight_update_uk {n : ℕ} (env : Env) (s : UK n) (u : OKUpdate)
    (h : u.params ≠ .none ∨ ∃ m, u.variogramModel = .gstools m) (w : Bool) :
    UK.update env s { u with weight := w } = UK.update env s u := by
  unfold UK.update
  dsimp only
  cases hres : UK.resolveModel env u.variogramModel u.variogramFunction u.params u.anisotropyScaling u.anisotropyAngle with
  | error e => rfl
  | ok r =>
  have hl : r.2.2.2.1 ≠ .none := by
    unfold UK.resolveModel at hres
    cases hv : u.variogramModel with
    | name nm =>
      rw [hv] at hres
      cases hres
      rcases h with h | ⟨m, h⟩
      · exact h
      · rw [hv] at h; cases h
    | gstools m =>
      rw [hv] at hres
      simp only [py_bind_eq_ok] at hres
      obtain ⟨_, -, hres⟩ := hres
      split_ifs at hres <;> cases hres
      simp
  obtain ⟨name, m, fArg, pArg, sc, an⟩ := r
  dsimp only
  cases chooseFunction name fArg with
  | error e => rfl
  | ok q =>
  dsimp only
  cases hp : makeVariogramParameterList name pArg with
  | error e => rfl
  | ok vp =>
  obtain ⟨l, rfl⟩ := makeParams_none hl hp
  dsimp only
  simp only [initialize_weight (w := w) (w' := u.weight)]

/-- `variogram_function` without the model 'custom'. -/
theorem C83_function_update_uk3d {n : ℕ} (env : Env) (s : UK3D n) (u : Update3D) (model : String)
    (h : u.variogramModel = .name model) (hm : model ≠ "custom") (g : FunArg) :
    UK3D.update env s { u with variogramFunction := g } = UK3D.update env s u := by
  unfold UK3D.update
  simp only [h, OK3D.resolveModel, chooseFunction_ignores hm g u.variogramFunction]

/-- What a GSTools model replaces. -/
theorem C83_gstools_update_uk3d {n : ℕ} (env : Env) (s : UK3D n) (u : Update3D) (model : GsModel)
    (h : u.variogramModel = .gstools model) (g : FunArg) (p : ParamArg) (an : Aniso3) :
    UK3D.update env s { u with variogramFunction := g, params := p, aniso := an } = UK3D.update env s u := by
  unfold UK3D.update
  simp only [h, OK3D.resolveModel]

/-- `weight` with given parameters or a GSTools model: nothing is fitted. -/
theorem C83_weight_update_uk3d {n : ℕ} (env : Env) (s : UK3D n) (u : Update3D)
    (h : u.params ≠ .none ∨ ∃ m, u.variogramModel = .gstools m) (w : Bool) :
    UK3D.update env s { u with weight := w } = UK3D.update env s u := by
  unfold UK3D.update
  dsimp only
  cases hres : OK3D.resolveModel env u.variogramModel u.variogramFunction u.params u.aniso with
  | error e => rfl
  | ok r =>
  have hl : r.2.2.2.1 ≠ .none := by
    unfold OK3D.resolveModel at hres
    cases hv : u.variogramModel with
    | name nm =>
      rw [hv] at hres
      cases hres
      rcases h with h | ⟨m, h⟩
      · exact h
      · rw [hv] at h; cases h
    | gstools m =>
      rw [hv] at hres
      simp only [py_bind_eq_ok] at hres
      obtain ⟨_, -, hres⟩ := hres
      split_ifs at hres <;> cases hres
      simp
  obtain ⟨name, m, fArg, pArg, an⟩ := r
  dsimp only
  cases chooseFunction name fArg with
  | error e => rfl
  | ok q =>
  dsimp only
  cases hp : makeVariogramParameterList name pArg with
  | error e => rfl
  | ok vp =>
  obtain ⟨l, rfl⟩ := makeParams_none hl hp
  dsimp only
  simp only [initialize_weight (w := w) (w' := u.weight)]

/-! ### Examples -/

section Examples
open Demo

example (z : Fin 4 → ℝ) (g : FunArg) := C83_function_update_ok stdEnv (S2 z) { variogramModel := .name "linear" } "linear" rfl (by decide) g
example (z : Fin 4 → ℝ) (g : FunArg) := C83_gstools_update_ok gsEnv (S2 z) { variogramModel := .gstools (gs 2 false) } _ rfl g (.list [1, 2])
example (z : Fin 4 → ℝ) := C83_weight_update_ok stdEnv (S2 z) { variogramModel := .name "linear", params := .list [1, 2] } (.inl (by simp)) true
example (z : Fin 4 → ℝ) (g : FunArg) := C83_function_update_ok3d stdEnv (S3 z) { variogramModel := .name "linear" } "linear" rfl (by decide) g
example (z : Fin 4 → ℝ) (g : FunArg) := C83_gstools_update_ok3d gsEnv (S3 z) { variogramModel := .gstools (gs 3 false) } _ rfl g (.list [1, 2])
example (z : Fin 4 → ℝ) := C83_weight_update_ok3d stdEnv (S3 z) { variogramModel := .name "linear", params := .list [1, 2] } (.inl (by simp)) true
example (z : Fin 4 → ℝ) (g : FunArg) := C83_function_update_uk stdEnv (U2 z) { variogramModel := .name "linear" } "linear" rfl (by decide) g
example (z : Fin 4 → ℝ) (g : FunArg) := C83_gstools_update_uk gsEnv (U2 z) { variogramModel := .gstools (gs 2 false) } _ rfl g (.list [1, 2])
example (z : Fin 4 → ℝ) := C83_weight_update_uk stdEnv (U2 z) { variogramModel := .name "linear", params := .list [1, 2] } (.inl (by simp)) true
example (z : Fin 4 → ℝ) (g : FunArg) := C83_function_update_uk3d stdEnv (U3 z) { variogramModel := .name "linear" } "linear" rfl (by decide) g
example (z : Fin 4 → ℝ) (g : FunArg) := C83_gstools_update_uk3d gsEnv (U3 z) { variogramModel := .gstools (gs 3 false) } _ rfl g (.list [1, 2])
example (z : Fin 4 → ℝ) := C83_weight_update_uk3d stdEnv (U3 z) { variogramModel := .name "linear", params := .list [1, 2] } (.inl (by simp)) true

end Examples

end
end PyKrige
