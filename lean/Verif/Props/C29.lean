import Verif.Lemmas.Accepts
import Verif.Examples.Demo

/-!
# C29: kriging systems of valid models are solvable

With linear, power, gaussian, exponential or spherical variogram (`Spec.ValidModel`), Euclidean distances, and a
variogram that separates the data (`Spec.Separates`: it grows and the data are at different places, or the nugget is
positive), neither the constructor nor `execute` ever meets a singular matrix: every well-posed request
(`Spec/Request.lean`) is answered, with all data or with a moving window.  Universal kriging also needs drift terms
that are linearly independent on the data.
-/

set_option linter.unusedSectionVars false

namespace PyKrige
noncomputable section
open Spec

/-- The model separates the data strictly. -/
theorem strict_of_valid {n : ℕ} {m : String} {ps : List ℝ} (hv : ValidModel m ps) {α : Type} {D : α → α → ℝ} {e : α → E3}
    (he : ∀ p q, D p q = ‖e p - e q‖) (x : Fin n → α) (hs : Separates ps fun i j => D (x i) (x j)) :
    ∃ γ, Builtin m ps γ ∧ StrictCondNeg (semivar γ fun i j => D (x i) (x j)) := by
  obtain ⟨-, -, -, γ, h1, -, h3, h4⟩ := hv.builtin
  exact ⟨γ, h1, strict_data h3 h4 he x hs⟩

/-- Statistics and lags of data with a separating model can be computed. -/
theorem determined_of_valid {n : ℕ} {env : Env} (hn : 2 ≤ n) {d : ℕ} {D : Fin n → Fin n → ℝ} {z : Fin n → ℝ} {m : String}
    {l : List ℝ} (hv : ValidModel m (listMeaning m l)) {γ : ℝ → ℝ} (hγ : StrictCondNeg (semivar γ D)) {f : VFun}
    (hf : f (listMeaning m l) = .ok γ) (nlags : ℕ) (weight stats pseudo : Bool) :
    Determined env d "euclidean" D z m (some (listMeaning m l)) f nlags weight stats pseudo := by
  intro X hX
  obtain ⟨lags, hl⟩ := initialize_of_given (env := env) hn (.inl rfl) X z (makeParams_list hv) f nlags weight
  refine ⟨lags, _, hl, fun _ => findStatistics_strict (.inl rfl) hf ?_ z⟩
  simpa only [hX] using hγ

/-- `OrdinaryKriging.execute` answers every well-posed request. -/
theorem C29_execute_2d {n : ℕ} {env : Env} {x y z : Fin n → ℝ} {args : OKArgs} {s : OK n}
    (h : OK.create env x y z args = .ok s)
    (hct : args.coordinatesType = "euclidean")
    {m : String} (hm : args.variogramModel = .name m) (hv : ValidModel m s.params)
    (hs : Separates s.params fun i j => okDistance args (x i, y i) (x j, y j)) {ea : ExecArgs}
    (ha : Admissible env args s ea.nClosest) (hq : WellPosed ea) (hw : WindowOk ea.nClosest) (hi : HasFloats ea)
    (hb : Supports env args ea.nClosest ea.backend) :
    ∃ r, s.execute env ea = .ok r := by
  obtain ⟨hmb, -⟩ := hv.builtin
  obtain ⟨e, hemb⟩ := okDistance_embed hct
  obtain ⟨γ, hγ, hst⟩ := strict_of_valid (D := okDistance args) hv hemb (fun i => (x i, y i)) hs
  obtain ⟨hev, -⟩ := chosen_evaluates hγ hmb (OK.create_function h hm)
  have h2 := OK.create_two_le h
  have : Nonempty (Fin n) := ⟨⟨0, by omega⟩⟩
  refine OK.accept h ha hev hq hw (fun _ => hi) hb (fun _ => .inr hst.regular_ok) fun k hk l hl hlen =>
    selRegular_strict hst hl ?_
  rintro rfl
  have := hw _ hk
  simp at hlen
  omega

/-- The `OrdinaryKriging` constructor accepts at least two data and the parameters of a separating model. -/
theorem C29_create_2d {n : ℕ} (env : Env) (hn : 2 ≤ n) (x y z : Fin n → ℝ) (args : OKArgs)
    (hpt : args.pseudoInvType ∈ ["pinv", "pinvh"]) {b : Bool} (hex : args.exactValues = .bool b)
    (hct : args.coordinatesType = "euclidean")
    {m : String} (hm : args.variogramModel = .name m) {l : List ℝ} (hpa : args.params = .list l)
    (hv : ValidModel m (listMeaning m l))
    (hs : Separates (listMeaning m l) fun i j => okDistance args (x i, y i) (x j, y j)) :
    ∃ s, OK.create env x y z args = .ok s ∧ s.params = listMeaning m l := by
  obtain ⟨hmb, -⟩ := hv.builtin
  obtain ⟨e, hemb⟩ := okDistance_embed hct
  obtain ⟨γ, hγ, hst⟩ := strict_of_valid (D := okDistance args) hv hemb (fun i => (x i, y i)) hs
  obtain ⟨f, hf, hfe⟩ := chooseFunction_builtin hγ hmb args.variogramFunction
  obtain ⟨s, hs', -, -, hp⟩ := OK.create_of (env := env) (z := z) hn hpt hex (by rw [hm]; rfl) hf (.inl hct)
    (hpa ▸ makeParams_list hv) (by rw [hct]; exact determined_of_valid hn hv hst hfe _ _ _ _)
  exact ⟨s, hs', hp _ rfl⟩

/-- `OrdinaryKriging3D.execute` answers every well-posed request. -/
theorem C29_execute_3d {n : ℕ} {env : Env} {x y z v : Fin n → ℝ} {args : OK3DArgs} {s : OK3D n}
    (h : OK3D.create env x y z v args = .ok s)
    {m : String} (hm : args.variogramModel = .name m) (hv : ValidModel m s.params)
    (hs : Separates s.params fun i j => ok3Distance args (x i, y i, z i) (x j, y j, z j)) {ea : ExecArgs3}
    (hk : KnnSpec env) (hwf : WindowFits n ea.nClosest) (hq : WellPosed3 ea) (hw : WindowOk ea.nClosest)
    (hi : HasFloats3 ea) (hb : ea.backend = "loop" ∨ (ea.nClosest = none ∧ ea.backend = "vectorized")) :
    ∃ r, s.execute env ea = .ok r := by
  obtain ⟨hmb, -⟩ := hv.builtin
  obtain ⟨e, hemb⟩ := distance3_embed _
  obtain ⟨γ, hγ, hst⟩ := strict_of_valid (D := ok3Distance args) hv hemb (fun i => (x i, y i, z i)) hs
  obtain ⟨hev, -⟩ := chosen_evaluates hγ hmb (OK3D.create_function h hm)
  have h2 := OK3D.create_two_le h
  have : Nonempty (Fin n) := ⟨⟨0, by omega⟩⟩
  refine OK3D.accept h hk hwf hev hq hw hi hb (fun _ => .inr hst.regular_ok) fun k hk l hl hlen =>
    selRegular_strict hst hl ?_
  rintro rfl
  have := hw _ hk
  simp at hlen
  omega

/-- The `OrdinaryKriging3D` constructor accepts at least two data and the parameters of a separating model. -/
theorem C29_create_3d {n : ℕ} (env : Env) (hn : 2 ≤ n) (x y z v : Fin n → ℝ) (args : OK3DArgs)
    (hpt : args.pseudoInvType ∈ ["pinv", "pinvh"]) {b : Bool} (hex : args.exactValues = .bool b)
    {m : String} (hm : args.variogramModel = .name m) {l : List ℝ} (hpa : args.params = .list l)
    (hv : ValidModel m (listMeaning m l))
    (hs : Separates (listMeaning m l) fun i j => ok3Distance args (x i, y i, z i) (x j, y j, z j)) :
    ∃ s, OK3D.create env x y z v args = .ok s ∧ s.params = listMeaning m l := by
  obtain ⟨hmb, -⟩ := hv.builtin
  obtain ⟨e, hemb⟩ := distance3_embed _
  obtain ⟨γ, hγ, hst⟩ := strict_of_valid (D := ok3Distance args) hv hemb (fun i => (x i, y i, z i)) hs
  obtain ⟨f, hf, hfe⟩ := chooseFunction_builtin hγ hmb args.variogramFunction
  obtain ⟨s, hs', -, -, hp⟩ := OK3D.create_of hn hpt hex (by rw [hm]; rfl) hf
    (hpa ▸ makeParams_list hv) (determined_of_valid hn hv hst hfe _ _ _ _)
  exact ⟨s, hs', hp _ rfl⟩

/-- `UniversalKriging.execute` answers every well-posed request.  (With specified drift and backend "loop" see C24.) -/
theorem C29_execute_uk {n : ℕ} {env : Env} {x y z : Fin n → ℝ} {args : UKArgs} {s : UK n}
    (h : UK.create env x y z args = .ok s)
    {m : String} (hm : args.variogramModel = .name m) (hv : ValidModel m s.params)
    (hs : Separates s.params fun i j => ukDistance args (x i, y i) (x j, y j)) {ea : UKExecArgs}
    (hI : args.pseudoInv = true ∨ Independent fun i => driftTerms2 args s.adjustPoint (specAtDatum args.specifiedDrift i) (x i, y i))
    (hq : WellPosed ea.toExec) (hi : HasFloats ea.toExec) (hsp : SpecFits args ea)
    (hb : ea.toExec.backend = "vectorized" ∨ ea.toExec.backend = "loop" ∧ "specified" ∉ args.driftTerms ∧
      ∀ j p, queryAt ea.toExec j = some p → maskedAt ea.toExec j = false →
        ¬ AtWell args s.anisotropyScaling s.anisotropyAngle p)
    (he : ∀ j p, queryAt ea.toExec j = some p → (maskedAt ea.toExec j = false ∨ ea.toExec.backend = "vectorized") →
      ExternalCovers args p) :
    ∃ r, s.execute ea = .ok r := by
  obtain ⟨hmb, -⟩ := hv.builtin
  obtain ⟨e, hemb⟩ := anisoDist2_embed _ _
  obtain ⟨γ, hγ, hst⟩ := strict_of_valid (D := ukDistance args) hv hemb (fun i => (x i, y i)) hs
  obtain ⟨hev, -⟩ := chosen_evaluates hγ hmb (UK.create_function h hm)
  exact UK.accept h hev hq hi hsp hb he (hI.imp id fun hI => UK.regular_of h hst hI)

/-- The `UniversalKriging` constructor accepts at least two data and the parameters of a separating model. -/
theorem C29_create_uk {n : ℕ} (env : Env) (hn : 2 ≤ n) (x y z : Fin n → ℝ) (args : UKArgs)
    (hpt : args.pseudoInvType ∈ ["pinv", "pinvh"]) {b : Bool} (hex : args.exactValues = .bool b)
    {m : String} (hm : args.variogramModel = .name m) {l : List ℝ} (hpa : args.params = .list l)
    (hv : ValidModel m (listMeaning m l))
    (hs : Separates (listMeaning m l) fun i j => ukDistance args (x i, y i) (x j, y j))
    (h1 : ∀ i, ExternalCovers args (x i, y i))
    (h2 : "point_log" ∈ args.driftTerms → args.pointDrift ≠ none ∧ args.pointDriftInt = false)
    (h3 : "specified" ∈ args.driftTerms → ∃ l, args.specifiedDrift = .list l ∧ l ≠ [] ∧ ∀ t ∈ l, t.length = n)
    (h4 : "functional" ∈ args.driftTerms → ∃ l, args.functionalDrift = .list l ∧ l ≠ []) :
    ∃ s, UK.create env x y z args = .ok s ∧ s.params = listMeaning m l := by
  obtain ⟨hmb, -⟩ := hv.builtin
  obtain ⟨e, hemb⟩ := anisoDist2_embed _ _
  obtain ⟨γ, hγ, hst⟩ := strict_of_valid (D := ukDistance args) hv hemb (fun i => (x i, y i)) hs
  obtain ⟨f, hf, hfe⟩ := chooseFunction_builtin hγ hmb args.variogramFunction
  obtain ⟨s, hs', -, -, hp⟩ := UK.create_of hn hpt hex (by rw [hm]; rfl) hf
    (hpa ▸ makeParams_list hv) (determined_of_valid hn hv hst hfe _ _ _ _) (setupExternalZ_ok (by omega) h1) h2 (setupSpecifiedTerm_ok h3)
    (setupFunctionalTerm_ok h4)
  exact ⟨s, hs', hp _ rfl⟩

/-- `UniversalKriging3D.execute` answers every well-posed request.  (With specified drift and backend "loop" see C24.) -/
theorem C29_execute_uk3d {n : ℕ} {env : Env} {x y z v : Fin n → ℝ} {args : UK3DArgs} {s : UK3D n}
    (h : UK3D.create env x y z v args = .ok s)
    {m : String} (hm : args.variogramModel = .name m) (hv : ValidModel m s.params)
    (hs : Separates s.params fun i j => uk3Distance args (x i, y i, z i) (x j, y j, z j)) {ea : UK3DExecArgs}
    (hI : args.pseudoInv = true ∨ Independent fun i => driftTerms3 args s.adjustPoint (specAtDatum args.specifiedDrift i) (x i, y i, z i))
    (hq : WellPosed3 ea.toExec) (hi : HasFloats3 ea.toExec) (hsp : SpecFits3 args ea)
    (hb : ea.toExec.backend = "vectorized" ∨ ea.toExec.backend = "loop" ∧ "specified" ∉ args.driftTerms) :
    ∃ r, s.execute ea = .ok r := by
  obtain ⟨hmb, -⟩ := hv.builtin
  obtain ⟨e, hemb⟩ := distance3_embed _
  obtain ⟨γ, hγ, hst⟩ := strict_of_valid (D := uk3Distance args) hv hemb (fun i => (x i, y i, z i)) hs
  obtain ⟨hev, -⟩ := chosen_evaluates hγ hmb (UK3D.create_function h hm)
  exact UK3D.accept h hev hq hi hsp hb (hI.imp id fun hI => UK3D.regular_of h hst hI)

/-- The `UniversalKriging3D` constructor accepts at least two data and the parameters of a separating model. -/
theorem C29_create_uk3d {n : ℕ} (env : Env) (hn : 2 ≤ n) (x y z v : Fin n → ℝ) (args : UK3DArgs)
    (hpt : args.pseudoInvType ∈ ["pinv", "pinvh"]) {b : Bool} (hex : args.exactValues = .bool b)
    {m : String} (hm : args.variogramModel = .name m) {l : List ℝ} (hpa : args.params = .list l)
    (hv : ValidModel m (listMeaning m l))
    (hs : Separates (listMeaning m l) fun i j => uk3Distance args (x i, y i, z i) (x j, y j, z j))
    (h3 : "specified" ∈ args.driftTerms → ∃ l, args.specifiedDrift = .list l ∧ l ≠ [] ∧ ∀ t ∈ l, t.length = n)
    (h4 : "functional" ∈ args.driftTerms → ∃ l, args.functionalDrift = .list l ∧ l ≠ []) :
    ∃ s, UK3D.create env x y z v args = .ok s ∧ s.params = listMeaning m l := by
  obtain ⟨hmb, -⟩ := hv.builtin
  obtain ⟨e, hemb⟩ := distance3_embed _
  obtain ⟨γ, hγ, hst⟩ := strict_of_valid (D := uk3Distance args) hv hemb (fun i => (x i, y i, z i)) hs
  obtain ⟨f, hf, hfe⟩ := chooseFunction_builtin hγ hmb args.variogramFunction
  obtain ⟨s, hs', -, -, hp⟩ := UK3D.create_of hn hpt hex (by rw [hm]; rfl) hf
    (hpa ▸ makeParams_list hv) (determined_of_valid hn hv hst hfe _ _ _ _) (setupSpecifiedTerm_ok h3)
    (setupFunctionalTerm_ok h4)
  exact ⟨s, hs', hp _ rfl⟩

end
end PyKrige
