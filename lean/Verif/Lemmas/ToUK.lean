import Verif.Model.HeapUK
import Verif.Lemmas.Py

/-! What `UniversalKriging` has in common with `OrdinaryKriging`. -/

namespace PyKrige
noncomputable section

theorem UK.resolveModel_eq (env : Env) (vm : ModelArg) (f : FunArg) (p : ParamArg) (sc an : ℝ) :
    UK.resolveModel env vm f p sc an = OK.resolveModel env "euclidean" vm f p sc an := by
  cases vm with
  | name s => rfl
  | gstools m =>
    unfold UK.resolveModel OK.resolveModel
    simp only [and_true]

/-- The constructor is that of `OrdinaryKriging`, followed by the drift terms. -/
theorem UK.create_eq {n : ℕ} (env : Env) (x y z : Fin n → ℝ) (args : UKArgs) :
    UK.create env x y z args = (do
      let s ← OK.create env x y z args.core
      let ext ← setupExternalZ s.X_ORIG s.Y_ORIG args
      let plog ← setupPointLog s.XCENTER s.YCENTER s.anisotropyScaling s.anisotropyAngle args
      let spec ← setupSpecifiedTerm n args.driftTerms args.specifiedDrift
      let func ← setupFunctionalTerm args.driftTerms args.functionalDrift
      return s.toUK { regionalLinear := decide ("regional_linear" ∈ args.driftTerms)
                      pointLog := plog, externalZ := ext, specified := spec, functional := func }) := by
  unfold UK.create OK.create
  rw [show args.core.pseudoInvType = args.pseudoInvType from rfl,
    show args.core.exactValues = args.exactValues from rfl,
    show args.core.variogramModel = args.variogramModel from rfl,
    show args.core.variogramFunction = args.variogramFunction from rfl,
    show args.core.params = args.params from rfl,
    show args.core.anisotropyScaling = args.anisotropyScaling from rfl,
    show args.core.anisotropyAngle = args.anisotropyAngle from rfl,
    show args.core.coordinatesType = "euclidean" from rfl,
    show args.core.nlags = args.nlags from rfl,
    show args.core.weight = args.weight from rfl,
    show args.core.enableStatistics = true from rfl,
    show args.core.pseudoInv = args.pseudoInv from rfl, UK.resolveModel_eq]
  by_cases h1 : args.pseudoInvType ∉ ["pinv", "pinvh"]
  · rw [if_pos h1, if_pos h1]; rfl
  rw [if_neg h1, if_neg h1]
  cases args.exactValues with
  | notBool => rfl
  | bool exact =>
  cases OK.resolveModel env "euclidean" args.variogramModel args.variogramFunction args.params
    args.anisotropyScaling args.anisotropyAngle with
  | error e => rfl
  | ok r =>
  obtain ⟨name, model, fArg, pArg, sc, an⟩ := r
  simp only [py_ok_bind, py_pure]
  cases chooseFunction name fArg with
  | error e => rfl
  | ok r =>
  obtain ⟨f, fname⟩ := r
  simp only [py_ok_bind]
  unfold OK.setupCoordinates
  rw [if_pos rfl]
  cases midrange x with
  | error e => rfl
  | ok xc =>
  cases midrange y with
  | error e => rfl
  | ok yc =>
  simp only [py_ok_bind, py_pure]
  cases makeVariogramParameterList name pArg with
  | error e => rfl
  | ok vp =>
  simp only [py_ok_bind]
  cases initializeVariogramModel env (adjustData2 x y xc yc sc an) z name vp f args.nlags args.weight "euclidean" with
  | error e => rfl
  | ok r =>
  obtain ⟨lags, ps⟩ := r
  simp only [py_ok_bind, if_true]
  cases findStatistics (adjustData2 x y xc yc sc an) z f ps "euclidean" args.pseudoInv with
  | error e => rfl
  | ok st => rfl

theorem OK.reAniso_toUK {n : ℕ} (s : OK n) (hc : s.coordinatesType = "euclidean") (d : UKDrift n) (sc an : ℝ) :
    (s.toUK d).reAniso sc an = (s.reAniso sc an).toUK d := by
  unfold UK.reAniso OK.reAniso
  rw [show (s.toUK d).anisotropyScaling = s.anisotropyScaling from rfl,
    show (s.toUK d).anisotropyAngle = s.anisotropyAngle from rfl]
  by_cases h : sc ≠ s.anisotropyScaling ∨ an ≠ s.anisotropyAngle
  · rw [if_pos h, if_pos h, if_pos hc]; rfl
  · rw [if_neg h, if_neg h]

theorem OK.reAniso_coordinates {n : ℕ} (s : OK n) (sc an : ℝ) :
    (s.reAniso sc an).coordinatesType = s.coordinatesType := by
  unfold OK.reAniso
  split
  · split
    · rfl
    · split <;> rfl
  · rfl

/-- `update_variogram_model` is that of `OrdinaryKriging`. -/
theorem OK.update_toUK {n : ℕ} (env : Env) (s : OK n) (hc : s.coordinatesType = "euclidean") (d : UKDrift n)
    (u : OKUpdate) : UK.update env (s.toUK d) u = ((OK.update env s u).1, (OK.update env s u).2.toUK d) ∧
      (OK.update env s u).2.coordinatesType = "euclidean" := by
  unfold UK.update OK.update
  dsimp only
  rw [UK.resolveModel_eq, hc]
  cases OK.resolveModel env "euclidean" u.variogramModel u.variogramFunction u.params u.anisotropyScaling
    u.anisotropyAngle with
  | error e =>
    cases u.variogramModel with
    | name m => exact ⟨rfl, rfl⟩
    | gstools m => exact ⟨rfl, rfl⟩
  | ok r =>
  obtain ⟨name, model, fArg, pArg, sc, an⟩ := r
  dsimp only
  cases chooseFunction name fArg with
  | error e => exact ⟨rfl, rfl⟩
  | ok r =>
  obtain ⟨f, fname⟩ := r
  dsimp only
  set s1 : OK n := { s with variogramModel := .name name, model := model, variogramFunction := f, functionName := fname } with hs1
  have hc1 : s1.coordinatesType = "euclidean" := hc
  have e1 : ({ s.toUK d with variogramModel := .name name, model := model, variogramFunction := f, functionName := fname } : UK n) =
      s1.toUK d := rfl
  have e2 : ({ s with variogramModel := .name name, model := model, coordinatesType := "euclidean", variogramFunction := f, functionName := fname } : OK n) =
      s1 := by rw [hs1, ← hc]
  rw [e1, OK.reAniso_toUK s1 hc1]
  try rw [e2]
  have hc2 : (s1.reAniso sc an).coordinatesType = "euclidean" := (OK.reAniso_coordinates _ _ _).trans hc1
  generalize s1.reAniso sc an = s2 at hc2
  cases makeVariogramParameterList name pArg with
  | error e => exact ⟨rfl, hc2⟩
  | ok vp =>
  dsimp only
  rw [hc2]
  change (match initializeVariogramModel env s2.pts s2.Z name vp f u.nlags u.weight "euclidean" with
    | .error e => _
    | .ok (lags, ps) => _) = _ ∧ _
  cases initializeVariogramModel env s2.pts s2.Z name vp f u.nlags u.weight "euclidean" with
  | error e => exact ⟨rfl, hc2⟩
  | ok r =>
  obtain ⟨lags, ps⟩ := r
  dsimp only
  change (match findStatistics s2.pts s2.Z f ps "euclidean" s2.pseudoInv with
    | .error e => _
    | .ok st => _) = ((match findStatistics s2.pts s2.Z f ps "euclidean" s2.pseudoInv with
    | .error e => _
    | .ok st => _ : Py Unit × OK n).1,
    OK.toUK (match findStatistics s2.pts s2.Z f ps "euclidean" s2.pseudoInv with
    | .error e => _
    | .ok st => _ : Py Unit × OK n).2 d) ∧
    (match findStatistics s2.pts s2.Z f ps "euclidean" s2.pseudoInv with
    | .error e => _
    | .ok st => _ : Py Unit × OK n).2.coordinatesType = _
  cases findStatistics s2.pts s2.Z f ps "euclidean" s2.pseudoInv with
  | error e => exact ⟨rfl, rfl⟩
  | ok st => exact ⟨rfl, rfl⟩

end
end PyKrige
