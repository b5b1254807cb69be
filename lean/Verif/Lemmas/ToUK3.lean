import Verif.Model.HeapUK3
import Verif.Lemmas.Py

/-! What `UniversalKriging3D` has in common with `OrdinaryKriging3D`. -/

namespace PyKrige
noncomputable section

/-- The constructor is that of `OrdinaryKriging3D`, followed by the drift terms. -/
theorem UK3D.create_eq {n : ℕ} (env : Env) (x y z val : Fin n → ℝ) (args : UK3DArgs) :
    UK3D.create env x y z val args = (do
      let s ← OK3D.create env x y z val args.core
      let spec ← setupSpecifiedTerm n args.driftTerms args.specifiedDrift
      let func ← setupFunctionalTerm args.driftTerms args.functionalDrift
      return s.toUK { regionalLinear := decide ("regional_linear" ∈ args.driftTerms)
                      specified := spec, functional := func }) := by
  unfold UK3D.create OK3D.create
  rw [show args.core.pseudoInvType = args.pseudoInvType from rfl,
    show args.core.exactValues = args.exactValues from rfl,
    show args.core.variogramModel = args.variogramModel from rfl,
    show args.core.variogramFunction = args.variogramFunction from rfl,
    show args.core.params = args.params from rfl,
    show args.core.aniso = args.aniso from rfl,
    show args.core.nlags = args.nlags from rfl,
    show args.core.weight = args.weight from rfl,
    show args.core.pseudoInv = args.pseudoInv from rfl]
  by_cases h1 : args.pseudoInvType ∉ ["pinv", "pinvh"]
  · rw [if_pos h1, if_pos h1]; rfl
  rw [if_neg h1, if_neg h1]
  cases args.exactValues with
  | notBool => rfl
  | bool exact =>
  cases OK3D.resolveModel env args.variogramModel args.variogramFunction args.params args.aniso with
  | error e => rfl
  | ok r =>
  obtain ⟨name, model, fArg, pArg, an⟩ := r
  simp only [py_ok_bind, py_pure]
  cases chooseFunction name fArg with
  | error e => rfl
  | ok r =>
  obtain ⟨f, fname⟩ := r
  simp only [py_ok_bind]
  cases midrange x with
  | error e => rfl
  | ok xc =>
  cases midrange y with
  | error e => rfl
  | ok yc =>
  cases midrange z with
  | error e => rfl
  | ok zc =>
  simp only [py_ok_bind]
  cases makeVariogramParameterList name pArg with
  | error e => rfl
  | ok vp =>
  simp only [py_ok_bind]
  cases initializeVariogramModel env (fun i => adjustPoint3 xc yc zc an (x i) (y i) (z i)) val name vp f args.nlags
    args.weight "euclidean" with
  | error e => rfl
  | ok r =>
  obtain ⟨lags, ps⟩ := r
  simp only [py_ok_bind]
  cases findStatistics (fun i => adjustPoint3 xc yc zc an (x i) (y i) (z i)) val f ps "euclidean" args.pseudoInv with
  | error e => rfl
  | ok st => rfl

theorem OK3D.reAniso_toUK {n : ℕ} (s : OK3D n) (d : UK3DDrift n) (an : Aniso3) :
    (s.toUK d).reAniso an = (s.reAniso an).toUK d := by
  unfold UK3D.reAniso OK3D.reAniso
  rw [show (s.toUK d).aniso = s.aniso from rfl]
  split
  · rfl
  · rfl

/-- `update_variogram_model` is that of `OrdinaryKriging3D`. -/
theorem OK3D.update_toUK {n : ℕ} (env : Env) (s : OK3D n) (d : UK3DDrift n) (u : Update3D) :
    UK3D.update env (s.toUK d) u = ((OK3D.update env s u).1, (OK3D.update env s u).2.toUK d) := by
  unfold UK3D.update OK3D.update
  dsimp only
  cases OK3D.resolveModel env u.variogramModel u.variogramFunction u.params u.aniso with
  | error e =>
    cases u.variogramModel with
    | name m => rfl
    | gstools m => rfl
  | ok r =>
  obtain ⟨name, model, fArg, pArg, an⟩ := r
  dsimp only
  cases chooseFunction name fArg with
  | error e => rfl
  | ok r =>
  obtain ⟨f, fname⟩ := r
  dsimp only
  set s1 : OK3D n := { s with variogramModel := .name name, model := model, variogramFunction := f, functionName := fname } with hs1
  have e1 : ({ s.toUK d with variogramModel := .name name, model := model, variogramFunction := f, functionName := fname } : UK3D n) =
      s1.toUK d := rfl
  rw [e1, OK3D.reAniso_toUK s1]
  generalize s1.reAniso an = s2
  cases makeVariogramParameterList name pArg with
  | error e => rfl
  | ok vp =>
  dsimp only
  change (match initializeVariogramModel env s2.pts s2.VALUES name vp f u.nlags u.weight "euclidean" with
    | .error e => _
    | .ok (lags, ps) => _) = _
  cases initializeVariogramModel env s2.pts s2.VALUES name vp f u.nlags u.weight "euclidean" with
  | error e => rfl
  | ok r =>
  obtain ⟨lags, ps⟩ := r
  dsimp only
  change (match findStatistics s2.pts s2.VALUES f ps "euclidean" s2.pseudoInv with
    | .error e => _
    | .ok st => _) = ((match findStatistics s2.pts s2.VALUES f ps "euclidean" s2.pseudoInv with
    | .error e => _
    | .ok st => _ : Py Unit × OK3D n).1,
    OK3D.toUK (match findStatistics s2.pts s2.VALUES f ps "euclidean" s2.pseudoInv with
    | .error e => _
    | .ok st => _ : Py Unit × OK3D n).2 d)
  cases findStatistics s2.pts s2.VALUES f ps "euclidean" s2.pseudoInv with
  | error e => rfl
  | ok st => rfl

end
end PyKrige
