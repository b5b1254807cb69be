import Verif.Props.C29
import Verif.Props.C28
import Verif.Props.C19

/-!
# C27: kriging variances are never negative

`C27_nonneg_*`: the variance at a prediction point is not negative whenever the variogram is conditionally negative
definite on the data plus that point.  `C27_builtin_*`: this is so for the linear, power, gaussian, exponential and
spherical models with admissible parameters and Euclidean distances, provided `Spec.Clear` holds: without
`exact_values` it always does; with `exact_values` a prediction point within 1e-10 of a datum must coincide with it, and
not with two data at once unless the nugget is 0.  `C27_negative_at_duplicate` shows that this proviso is needed: at a
location measured twice, with nugget `c`, the program returns the variance `-c/2`.
-/

set_option linter.unusedSectionVars false

namespace PyKrige
noncomputable section
open Matrix Spec

/-- The parameters found by an automatic fit are admissible (positive range). -/
theorem withinBounds_valid {m : String} {S L : ℝ} {ps : List ℝ} (h : WithinBounds m S L ps) (hm : m ∈ compiledModels)
    (hr : ps[1]? ≠ some 0) : ValidModel m ps := by
  unfold WithinBounds at h
  split at h
  · next e =>
    obtain ⟨a, c, e', ha, hc, -⟩ := h
    exact .inl ⟨a, c, e, e', ha, hc⟩
  · split at h
    · next e =>
      obtain ⟨a, p, c, e', ha, h1, h2, hc, -⟩ := h
      exact .inr (.inl ⟨a, p, c, e, e', ha, by linarith, by linarith, hc⟩)
    · next e1 e2 =>
      obtain ⟨a, r, c, e', ha, -, hr0, -, hc, -⟩ := h
      refine .inr (.inr ⟨a, r, c, ?_, e', ha, lt_of_le_of_ne hr0 fun h => hr (by rw [e', ← h]; rfl), hc⟩)
      simp only [compiledModels, List.mem_cons, List.not_mem_nil, or_false] at hm ⊢
      tauto

/-- `OrdinaryKriging`, any variogram that is conditionally negative definite on the data and the prediction point. -/
theorem C27_nonneg_2d {n : ℕ} {env : Env} {x y z : Fin n → ℝ} {args : OKArgs} {s : OK n}
    (h : OK.create env x y z args = .ok s) {ea : ExecArgs} (ha : Admissible env args s ea.nClosest)
    {γ : ℝ → ℝ} (hγ : s.variogramFunction s.params = .ok γ) {exact : Bool} (hex : args.exactValues = .bool exact)
    {r : ExecResult} (hr : s.execute env ea = .ok r) {j : ℕ}
    (hc : ∀ p, queryAt ea j = some p →
      CondNeg (withPoint (semivar γ fun i i' => okDistance args (x i, y i) (x i', y i'))
        (semivarTo exact γ fun i => okDistance args p (x i, y i))))
    {var : ℝ} (hj : r.ss[j]? = some (some var)) : 0 ≤ var := by
  obtain ⟨p, hq, hm⟩ : ∃ p, queryAt ea j = some p ∧ maskedAt ea j = false := by
    have ht := (OK.create_pw h ha).table r hr
    rw [ht.ss_eq] at hj
    cases hq : queryAt ea j with
    | none => simp [hq] at hj
    | some p =>
      refine ⟨p, rfl, ?_⟩
      cases hm : maskedAt ea j with
      | false => rfl
      | true => rw [hq, hm] at hj; simp at hj
  have hG := (hc p hq).of_withPoint
  obtain ⟨S, -, -, est, var', -, h2, hB⟩ := C28_best_2d h ha hγ hex hG hr hq hm (.inr (.inr (hc p hq)))
  obtain rfl : var' = var := by rw [h2] at hj; simpa using hj
  obtain ⟨w, hw', -, e⟩ := hB.exists_weights
  rw [e]
  exact errorVariance_nonneg (hc p hq) hw'.sum_one

/-- `OrdinaryKriging`, built-in models. -/
theorem C27_builtin_2d_partial {n : ℕ} {env : Env} {x y z : Fin n → ℝ} {args : OKArgs} {s : OK n}
    (h : OK.create env x y z args = .ok s)
    (hct : args.coordinatesType = "euclidean") {ea : ExecArgs} (ha : Admissible env args s ea.nClosest)
    {m : String} (hm : args.variogramModel = .name m) (hv : ValidModel m s.params)
    {γ : ℝ → ℝ} (hγ : s.variogramFunction s.params = .ok γ) {exact : Bool} (hex : args.exactValues = .bool exact)
    {r : ExecResult} (hr : s.execute env ea = .ok r) {j : ℕ}
    (hcl : ∀ p, queryAt ea j = some p → Clear exact γ fun i => okDistance args p (x i, y i))
    {var : ℝ} (hj : r.ss[j]? = some (some var)) : 0 ≤ var := by
  obtain ⟨hmb, -, -, γ', hb, hval, -⟩ := hv.builtin
  obtain ⟨hev, -⟩ := chosen_evaluates hb hmb (OK.create_function h hm)
  obtain rfl : γ = γ' := by rw [hγ] at hev; exact Except.ok.inj hev
  obtain ⟨e, hemb⟩ := okDistance_embed hct
  exact C27_nonneg_2d h ha hγ hex hr (fun p hq => hval.withPoint' (D := okDistance args) hemb (fun i => (x i, y i)) p (hcl p hq)) hj

/-- `OrdinaryKriging`, built-in models fitted to the data. -/
theorem C27_fitted_2d_partial {n : ℕ} {env : Env} {x y z : Fin n → ℝ} {args : OKArgs} {s : OK n}
    (h : OK.create env x y z args = .ok s)
    (hct : args.coordinatesType = "euclidean") {ea : ExecArgs} (ha : Admissible env args s ea.nClosest)
    {m : String} (hm : args.variogramModel = .name m) (hmc : m ∈ compiledModels) (hp : args.params = .none)
    (hn : 0 < args.nlags) (hl : LsqSpec env) (hrg : s.params[1]? ≠ some 0 ∨ m = "linear")
    {γ : ℝ → ℝ} (hγ : s.variogramFunction s.params = .ok γ) {exact : Bool} (hex : args.exactValues = .bool exact)
    {r : ExecResult} (hr : s.execute env ea = .ok r) {j : ℕ}
    (hcl : ∀ p, queryAt ea j = some p → Clear exact γ fun i => okDistance args p (x i, y i))
    {var : ℝ} (hj : r.ss[j]? = some (some var)) : 0 ≤ var := by
  obtain ⟨-, S, L, -, -, hb⟩ := C19_bounds_ok h hm (by rintro rfl; simp [compiledModels] at hmc) hp hn hl
  have hv : ValidModel m s.params := by
    rcases hrg with hrg | rfl
    · exact withinBounds_valid hb hmc hrg
    · unfold WithinBounds at hb
      rw [if_pos rfl] at hb
      obtain ⟨a, c, e', ha, hc, -⟩ := hb
      exact .inl ⟨a, c, rfl, e', ha, hc⟩
  exact C27_builtin_2d_partial h hct ha hm hv hγ hex hr hcl hj

/-- `OrdinaryKriging3D`, any variogram that is conditionally negative definite on the data and the prediction point. -/
theorem C27_nonneg_3d {n : ℕ} {env : Env} {x y z v : Fin n → ℝ} {args : OK3DArgs} {s : OK3D n}
    (h : OK3D.create env x y z v args = .ok s) {ea : ExecArgs3} (hk : KnnSpec env)
    (hw : WindowFits n ea.nClosest)
    {γ : ℝ → ℝ} (hγ : s.variogramFunction s.params = .ok γ) {exact : Bool} (hex : args.exactValues = .bool exact)
    {r : ExecResult} (hr : s.execute env ea = .ok r) {j : ℕ}
    (hc : ∀ p, queryAt3 ea j = some p →
      CondNeg (withPoint (semivar γ fun i i' => ok3Distance args (x i, y i, z i) (x i', y i', z i'))
        (semivarTo exact γ fun i => ok3Distance args p (x i, y i, z i))))
    {var : ℝ} (hj : r.ss[j]? = some (some var)) : 0 ≤ var := by
  obtain ⟨p, hq, hm⟩ : ∃ p, queryAt3 ea j = some p ∧ maskedAt3 ea j = false := by
    have ht := (OK3D.create_pw h hk hw).table r hr
    rw [ht.ss_eq] at hj
    cases hq : queryAt3 ea j with
    | none => simp [hq] at hj
    | some p =>
      refine ⟨p, rfl, ?_⟩
      cases hm : maskedAt3 ea j with
      | false => rfl
      | true => rw [hq, hm] at hj; simp at hj
  have hG := (hc p hq).of_withPoint
  obtain ⟨S, -, -, est, var', -, h2, hB⟩ := C28_best_3d h hk hw hγ hex hG hr hq hm (.inr (.inr (hc p hq)))
  obtain rfl : var' = var := by rw [h2] at hj; simpa using hj
  obtain ⟨w, hw', -, e⟩ := hB.exists_weights
  rw [e]
  exact errorVariance_nonneg (hc p hq) hw'.sum_one

/-- `OrdinaryKriging3D`, built-in models. -/
theorem C27_builtin_3d_partial {n : ℕ} {env : Env} {x y z v : Fin n → ℝ} {args : OK3DArgs} {s : OK3D n}
    (h : OK3D.create env x y z v args = .ok s) {ea : ExecArgs3} (hk : KnnSpec env)
    (hw : WindowFits n ea.nClosest)
    {m : String} (hm : args.variogramModel = .name m) (hv : ValidModel m s.params)
    {γ : ℝ → ℝ} (hγ : s.variogramFunction s.params = .ok γ) {exact : Bool} (hex : args.exactValues = .bool exact)
    {r : ExecResult} (hr : s.execute env ea = .ok r) {j : ℕ}
    (hcl : ∀ p, queryAt3 ea j = some p → Clear exact γ fun i => ok3Distance args p (x i, y i, z i))
    {var : ℝ} (hj : r.ss[j]? = some (some var)) : 0 ≤ var := by
  obtain ⟨hmb, -, -, γ', hb, hval, -⟩ := hv.builtin
  obtain ⟨hev, -⟩ := chosen_evaluates hb hmb (OK3D.create_function h hm)
  obtain rfl : γ = γ' := by rw [hγ] at hev; exact Except.ok.inj hev
  obtain ⟨e, hemb⟩ := distance3_embed _
  exact C27_nonneg_3d h hk hw hγ hex hr (fun p hq => hval.withPoint' (D := ok3Distance args) hemb (fun i => (x i, y i, z i)) p (hcl p hq)) hj

/-- `OrdinaryKriging3D`, built-in models fitted to the data. -/
theorem C27_fitted_3d_partial {n : ℕ} {env : Env} {x y z v : Fin n → ℝ} {args : OK3DArgs} {s : OK3D n}
    (h : OK3D.create env x y z v args = .ok s) {ea : ExecArgs3} (hk : KnnSpec env)
    (hw : WindowFits n ea.nClosest)
    {m : String} (hm : args.variogramModel = .name m) (hmc : m ∈ compiledModels) (hp : args.params = .none)
    (hn : 0 < args.nlags) (hl : LsqSpec env) (hrg : s.params[1]? ≠ some 0 ∨ m = "linear")
    {γ : ℝ → ℝ} (hγ : s.variogramFunction s.params = .ok γ) {exact : Bool} (hex : args.exactValues = .bool exact)
    {r : ExecResult} (hr : s.execute env ea = .ok r) {j : ℕ}
    (hcl : ∀ p, queryAt3 ea j = some p → Clear exact γ fun i => ok3Distance args p (x i, y i, z i))
    {var : ℝ} (hj : r.ss[j]? = some (some var)) : 0 ≤ var := by
  obtain ⟨-, S, L, -, -, hb⟩ := C19_bounds_ok3 h hm (by rintro rfl; simp [compiledModels] at hmc) hp hn hl
  have hv : ValidModel m s.params := by
    rcases hrg with hrg | rfl
    · exact withinBounds_valid hb hmc hrg
    · unfold WithinBounds at hb
      rw [if_pos rfl] at hb
      obtain ⟨a, c, e', ha, hc, -⟩ := hb
      exact .inl ⟨a, c, rfl, e', ha, hc⟩
  exact C27_builtin_3d_partial h hk hw hm hv hγ hex hr hcl hj

/-- `UniversalKriging`, any variogram that is conditionally negative definite on the data and the prediction point. -/
theorem C27_nonneg_uk {n : ℕ} {env : Env} {x y z : Fin n → ℝ} {args : UKArgs} {s : UK n}
    (h : UK.create env x y z args = .ok s) {ea : UKExecArgs}
    (hs : "specified" ∈ args.driftTerms → ea.toExec.backend = "vectorized")
    {γ : ℝ → ℝ} (hγ : s.variogramFunction s.params = .ok γ) {exact : Bool} (hex : args.exactValues = .bool exact)
    {r : ExecResult} (hr : s.execute ea = .ok r) {j : ℕ}
    (hu : args.pseudoInv = false ∨ ∀ p, queryAt ea.toExec j = some p →
      ∃ u, Unbiased Set.univ (fun i => driftTerms2 args s.adjustPoint (specAtDatum args.specifiedDrift i) (x i, y i))
        (driftTerms2 args s.adjustPoint (specAtQuery ea j) p) u)
    (hc : ∀ p, queryAt ea.toExec j = some p →
      CondNeg (withPoint (semivar γ fun i i' => ukDistance args (x i, y i) (x i', y i'))
        (semivarTo exact γ fun i => ukDistance args p (x i, y i))))
    {var : ℝ} (hj : r.ss[j]? = some (some var)) : 0 ≤ var := by
  obtain ⟨p, hq, hm⟩ : ∃ p, queryAt ea.toExec j = some p ∧ maskedAt ea.toExec j = false := by
    have ht := (UK.create_pw h ea).table r hr
    rw [ht.ss_eq] at hj
    cases hq : queryAt ea.toExec j with
    | none => simp [hq] at hj
    | some p =>
      refine ⟨p, rfl, ?_⟩
      cases hm : maskedAt ea.toExec j with
      | false => rfl
      | true => rw [hq, hm] at hj; simp at hj
  have hG := (hc p hq).of_withPoint
  obtain ⟨est, var', -, h2, hB⟩ := C28_best_uk h hγ hex hs hG hr hq hm (hu.imp_right fun hu => ⟨hc p hq, hu p hq⟩)
  obtain rfl : var' = var := by rw [h2] at hj; simpa using hj
  obtain ⟨w, hw', -, e⟩ := hB.exists_weights
  rw [e]
  exact errorVariance_nonneg (hc p hq) hw'.sum_one

/-- `UniversalKriging`, built-in models. -/
theorem C27_builtin_uk_partial {n : ℕ} {env : Env} {x y z : Fin n → ℝ} {args : UKArgs} {s : UK n}
    (h : UK.create env x y z args = .ok s) {ea : UKExecArgs}
    (hs : "specified" ∈ args.driftTerms → ea.toExec.backend = "vectorized")
    {m : String} (hm : args.variogramModel = .name m) (hv : ValidModel m s.params)
    {γ : ℝ → ℝ} (hγ : s.variogramFunction s.params = .ok γ) {exact : Bool} (hex : args.exactValues = .bool exact)
    {r : ExecResult} (hr : s.execute ea = .ok r) {j : ℕ}
    (hu : args.pseudoInv = false ∨ ∀ p, queryAt ea.toExec j = some p →
      ∃ u, Unbiased Set.univ (fun i => driftTerms2 args s.adjustPoint (specAtDatum args.specifiedDrift i) (x i, y i))
        (driftTerms2 args s.adjustPoint (specAtQuery ea j) p) u)
    (hcl : ∀ p, queryAt ea.toExec j = some p → Clear exact γ fun i => ukDistance args p (x i, y i))
    {var : ℝ} (hj : r.ss[j]? = some (some var)) : 0 ≤ var := by
  obtain ⟨hmb, -, -, γ', hb, hval, -⟩ := hv.builtin
  obtain ⟨hev, -⟩ := chosen_evaluates hb hmb (UK.create_function h hm)
  obtain rfl : γ = γ' := by rw [hγ] at hev; exact Except.ok.inj hev
  obtain ⟨e, hemb⟩ := anisoDist2_embed _ _
  exact C27_nonneg_uk h hs hγ hex hr hu (fun p hq => hval.withPoint' (D := ukDistance args) hemb (fun i => (x i, y i)) p (hcl p hq)) hj

/-- `UniversalKriging`, built-in models fitted to the data. -/
theorem C27_fitted_uk_partial {n : ℕ} {env : Env} {x y z : Fin n → ℝ} {args : UKArgs} {s : UK n}
    (h : UK.create env x y z args = .ok s) {ea : UKExecArgs}
    (hs : "specified" ∈ args.driftTerms → ea.toExec.backend = "vectorized")
    {m : String} (hm : args.variogramModel = .name m) (hmc : m ∈ compiledModels) (hp : args.params = .none)
    (hn : 0 < args.nlags) (hl : LsqSpec env) (hrg : s.params[1]? ≠ some 0 ∨ m = "linear")
    {γ : ℝ → ℝ} (hγ : s.variogramFunction s.params = .ok γ) {exact : Bool} (hex : args.exactValues = .bool exact)
    {r : ExecResult} (hr : s.execute ea = .ok r) {j : ℕ}
    (hu : args.pseudoInv = false ∨ ∀ p, queryAt ea.toExec j = some p →
      ∃ u, Unbiased Set.univ (fun i => driftTerms2 args s.adjustPoint (specAtDatum args.specifiedDrift i) (x i, y i))
        (driftTerms2 args s.adjustPoint (specAtQuery ea j) p) u)
    (hcl : ∀ p, queryAt ea.toExec j = some p → Clear exact γ fun i => ukDistance args p (x i, y i))
    {var : ℝ} (hj : r.ss[j]? = some (some var)) : 0 ≤ var := by
  obtain ⟨-, S, L, -, -, hb⟩ := C19_bounds_uk h hm (by rintro rfl; simp [compiledModels] at hmc) hp hn hl
  have hv : ValidModel m s.params := by
    rcases hrg with hrg | rfl
    · exact withinBounds_valid hb hmc hrg
    · unfold WithinBounds at hb
      rw [if_pos rfl] at hb
      obtain ⟨a, c, e', ha, hc, -⟩ := hb
      exact .inl ⟨a, c, rfl, e', ha, hc⟩
  exact C27_builtin_uk_partial h hs hm hv hγ hex hr hu hcl hj

/-- `UniversalKriging3D`, any variogram that is conditionally negative definite on the data and the prediction point. -/
theorem C27_nonneg_uk3d {n : ℕ} {env : Env} {x y z v : Fin n → ℝ} {args : UK3DArgs} {s : UK3D n}
    (h : UK3D.create env x y z v args = .ok s) {ea : UK3DExecArgs}
    (hs : "specified" ∈ args.driftTerms → ea.toExec.backend = "vectorized")
    {γ : ℝ → ℝ} (hγ : s.variogramFunction s.params = .ok γ) {exact : Bool} (hex : args.exactValues = .bool exact)
    {r : ExecResult} (hr : s.execute ea = .ok r) {j : ℕ}
    (hu : args.pseudoInv = false ∨ ∀ p, queryAt3 ea.toExec j = some p →
      ∃ u, Unbiased Set.univ (fun i => driftTerms3 args s.adjustPoint (specAtDatum args.specifiedDrift i) (x i, y i, z i))
        (driftTerms3 args s.adjustPoint (specAtQuery3 ea j) p) u)
    (hc : ∀ p, queryAt3 ea.toExec j = some p →
      CondNeg (withPoint (semivar γ fun i i' => uk3Distance args (x i, y i, z i) (x i', y i', z i'))
        (semivarTo exact γ fun i => uk3Distance args p (x i, y i, z i))))
    {var : ℝ} (hj : r.ss[j]? = some (some var)) : 0 ≤ var := by
  obtain ⟨p, hq, hm⟩ : ∃ p, queryAt3 ea.toExec j = some p ∧ maskedAt3 ea.toExec j = false := by
    have ht := (UK3D.create_pw h ea).table r hr
    rw [ht.ss_eq] at hj
    cases hq : queryAt3 ea.toExec j with
    | none => simp [hq] at hj
    | some p =>
      refine ⟨p, rfl, ?_⟩
      cases hm : maskedAt3 ea.toExec j with
      | false => rfl
      | true => rw [hq, hm] at hj; simp at hj
  have hG := (hc p hq).of_withPoint
  obtain ⟨est, var', -, h2, hB⟩ := C28_best_uk3d h hγ hex hs hG hr hq hm (hu.imp_right fun hu => ⟨hc p hq, hu p hq⟩)
  obtain rfl : var' = var := by rw [h2] at hj; simpa using hj
  obtain ⟨w, hw', -, e⟩ := hB.exists_weights
  rw [e]
  exact errorVariance_nonneg (hc p hq) hw'.sum_one

/-- `UniversalKriging3D`, built-in models. -/
theorem C27_builtin_uk3d_partial {n : ℕ} {env : Env} {x y z v : Fin n → ℝ} {args : UK3DArgs} {s : UK3D n}
    (h : UK3D.create env x y z v args = .ok s) {ea : UK3DExecArgs}
    (hs : "specified" ∈ args.driftTerms → ea.toExec.backend = "vectorized")
    {m : String} (hm : args.variogramModel = .name m) (hv : ValidModel m s.params)
    {γ : ℝ → ℝ} (hγ : s.variogramFunction s.params = .ok γ) {exact : Bool} (hex : args.exactValues = .bool exact)
    {r : ExecResult} (hr : s.execute ea = .ok r) {j : ℕ}
    (hu : args.pseudoInv = false ∨ ∀ p, queryAt3 ea.toExec j = some p →
      ∃ u, Unbiased Set.univ (fun i => driftTerms3 args s.adjustPoint (specAtDatum args.specifiedDrift i) (x i, y i, z i))
        (driftTerms3 args s.adjustPoint (specAtQuery3 ea j) p) u)
    (hcl : ∀ p, queryAt3 ea.toExec j = some p → Clear exact γ fun i => uk3Distance args p (x i, y i, z i))
    {var : ℝ} (hj : r.ss[j]? = some (some var)) : 0 ≤ var := by
  obtain ⟨hmb, -, -, γ', hb, hval, -⟩ := hv.builtin
  obtain ⟨hev, -⟩ := chosen_evaluates hb hmb (UK3D.create_function h hm)
  obtain rfl : γ = γ' := by rw [hγ] at hev; exact Except.ok.inj hev
  obtain ⟨e, hemb⟩ := distance3_embed _
  exact C27_nonneg_uk3d h hs hγ hex hr hu (fun p hq => hval.withPoint' (D := uk3Distance args) hemb (fun i => (x i, y i, z i)) p (hcl p hq)) hj

/-- `UniversalKriging3D`, built-in models fitted to the data. -/
theorem C27_fitted_uk3d_partial {n : ℕ} {env : Env} {x y z v : Fin n → ℝ} {args : UK3DArgs} {s : UK3D n}
    (h : UK3D.create env x y z v args = .ok s) {ea : UK3DExecArgs}
    (hs : "specified" ∈ args.driftTerms → ea.toExec.backend = "vectorized")
    {m : String} (hm : args.variogramModel = .name m) (hmc : m ∈ compiledModels) (hp : args.params = .none)
    (hn : 0 < args.nlags) (hl : LsqSpec env) (hrg : s.params[1]? ≠ some 0 ∨ m = "linear")
    {γ : ℝ → ℝ} (hγ : s.variogramFunction s.params = .ok γ) {exact : Bool} (hex : args.exactValues = .bool exact)
    {r : ExecResult} (hr : s.execute ea = .ok r) {j : ℕ}
    (hu : args.pseudoInv = false ∨ ∀ p, queryAt3 ea.toExec j = some p →
      ∃ u, Unbiased Set.univ (fun i => driftTerms3 args s.adjustPoint (specAtDatum args.specifiedDrift i) (x i, y i, z i))
        (driftTerms3 args s.adjustPoint (specAtQuery3 ea j) p) u)
    (hcl : ∀ p, queryAt3 ea.toExec j = some p → Clear exact γ fun i => uk3Distance args p (x i, y i, z i))
    {var : ℝ} (hj : r.ss[j]? = some (some var)) : 0 ≤ var := by
  obtain ⟨-, S, L, -, -, hb⟩ := C19_bounds_uk3 h hm (by rintro rfl; simp [compiledModels] at hmc) hp hn hl
  have hv : ValidModel m s.params := by
    rcases hrg with hrg | rfl
    · exact withinBounds_valid hb hmc hrg
    · unfold WithinBounds at hb
      rw [if_pos rfl] at hb
      obtain ⟨a, c, e', ha, hc, -⟩ := hb
      exact .inl ⟨a, c, rfl, e', ha, hc⟩
  exact C27_builtin_uk3d_partial h hs hm hv hγ hex hr hu hcl hj

/-- The proviso is needed: two data at one location, linear variogram with positive nugget `c`; the variance returned
at that location is `-c/2`. -/
theorem C27_negative_at_duplicate (c : ℝ) (hc : 0 < c) (z : Fin 2 → ℝ) :
    ∃ s r, OK.create stdEnv Demo.O Demo.O z (Demo.args c true false) = .ok s ∧
      s.execute stdEnv (Demo.pts [(0, 0)] "vectorized") = .ok r ∧ r.ss = [some (-c / 2)] := by
  have hv : ValidModel "linear" [1, c] := .inl ⟨1, c, rfl, rfl, zero_le_one, hc.le⟩
  have hs : Separates [1, c] fun i j => okDistance (Demo.args c true false) (Demo.O i, Demo.O i) (Demo.O j, Demo.O j) :=
    .inr ⟨[1], c, rfl, hc⟩
  obtain ⟨s, h, hps⟩ := C29_create_2d stdEnv le_rfl Demo.O Demo.O z (Demo.args c true false) (by simp [Demo.args]) rfl rfl
    (m := "linear") rfl (l := [1, c]) rfl hv hs
  have hps : s.params = [1, c] := hps
  obtain ⟨hmb, -⟩ := hv.builtin
  obtain ⟨hev, hname⟩ := chosen_evaluates (builtin_linear.2 rfl) hmb (OK.create_function h (m := "linear") rfl)
  have ha : Admissible stdEnv (Demo.args c true false) s none :=
    ⟨stdEnv_knn, trivial, by rw [hps, hname]; exact hv.rangeOk, by intro k hk; cases hk⟩
  obtain ⟨r, hr⟩ := C29_execute_2d (ea := Demo.pts [(0, 0)] "vectorized") h rfl (m := "linear") rfl (hps ▸ hv) (hps ▸ hs) ha
    (.inr (.inr ⟨rfl, by simp [Demo.pts]⟩)) (by intro k hk; cases hk) (by simp [HasFloats, Demo.pts]) (.inr (.inl ⟨rfl, rfl⟩))
  refine ⟨s, r, h, hr, ?_⟩
  obtain ⟨e, hemb⟩ := okDistance_embed (args := Demo.args c true false) rfl
  have d0 : ∀ i j : Fin 2, okDistance (Demo.args c true false) (Demo.O i, Demo.O i) (Demo.O j, Demo.O j) = 0 := by
    intro i j
    rw [hemb]
    fin_cases i <;> fin_cases j <;> simp [Demo.O]
  have d1 : ∀ i : Fin 2, okDistance (Demo.args c true false) (0, 0) (Demo.O i, Demo.O i) = 0 := by
    intro i
    have := d0 0 i
    simpa [Demo.O] using this
  have hq : queryAt (Demo.pts [(0, 0)] "vectorized") 0 = some (0, 0) := by simp [queryAt, Demo.pts]
  obtain ⟨S, hS, -, est, var, -, h2, hB⟩ := C28_best_2d (exact := true) h ha (hps ▸ hev) rfl
    ((linear_valid zero_le_one hc.le).data hemb fun i => (Demo.O i, Demo.O i)) hr (j := 0) (p := (0, 0)) hq
    (by simp [maskedAt, Demo.pts]) (.inl rfl)
  obtain rfl := hS rfl
  have ev : ∀ w : Fin 2 → ℝ, errorVariance (semivar (linearFormula 1 c) fun i i' => okDistance (Demo.args c true false)
      (Demo.O i, Demo.O i) (Demo.O i', Demo.O i')) (semivarTo true (linearFormula 1 c) fun i =>
      okDistance (Demo.args c true false) (0, 0) (Demo.O i, Demo.O i)) w = -(2 * c * (w 0 * w 1)) := by
    intro w
    simp only [d0, d1]
    simp [errorVariance, semivar, semivarTo, Fin.sum_univ_two, linearFormula]
    ring
  obtain ⟨w, hw, -, he⟩ := hB.exists_weights
  have h1 := hB.best ![1 / 2, 1 / 2] ⟨by simp, by norm_num [Fin.sum_univ_two], by simp⟩
  rw [ev] at h1 he
  have hsum := hw.sum_one
  rw [Fin.sum_univ_two] at hsum
  have h1' : var ≤ -c / 2 := by
    refine h1.trans (le_of_eq ?_)
    simp
    ring
  have h2' : var = -c / 2 := by
    refine le_antisymm h1' ?_
    rw [he]
    have : w 1 = 1 - w 0 := by linarith
    rw [this]
    nlinarith [mul_nonneg hc.le (sq_nonneg (w 0 - 1 / 2))]
  subst h2'
  have hlen : r.ss.length = 1 := by
    have ht := ((OK.create_pw h ha).table r hr).ss_eq
    have h0 := List.getElem?_eq_none_iff.1 ((ht 1).trans (by simp [queryAt, Demo.pts]))
    have h1 : 0 < r.ss.length := by
      by_contra hc0
      rw [List.getElem?_eq_none_iff.2 (by omega)] at h2
      cases h2
    omega
  match hss : r.ss, hlen with
  | [a], _ =>
    rw [hss] at h2
    simpa using h2

/-- Two data at distance 1, linear variogram with nugget `c`, exact values: the proviso holds at a datum and far from
the data. -/
example (c : ℝ) (hc : 0 ≤ c) : ∃ s r, OK.create stdEnv Demo.X Demo.O ![3, 5] (Demo.args c true false) = .ok s ∧
    s.execute stdEnv (Demo.pts [(0, 0), (3, 0)] "vectorized") = .ok r ∧ ∀ (j : ℕ) var, r.ss[j]? = some (some var) → 0 ≤ var := by
  obtain ⟨s, h, hp, hv, -⟩ := Demo.ok ![3, 5] c true false
  obtain ⟨ha, r, hr⟩ := Demo.ok_run hc h [(0, 0), (3, 0)] (b := "vectorized") (.inl rfl)
  have hvm : ValidModel "linear" [1, c] := .inl ⟨1, c, rfl, rfl, zero_le_one, hc⟩
  refine ⟨s, r, h, hr, fun j var hj => C27_builtin_2d_partial (exact := true) h rfl ha (m := "linear") rfl (hp ▸ hvm) (γ := linearFormula 1 c)
    (by rw [hp]; exact (chosen_evaluates (builtin_linear.2 rfl) hvm.builtin.1 (OK.create_function h (m := "linear") rfl)).1) rfl hr (fun p hq => ?_) hj⟩
  have key : ∀ a : ℝ, ∀ i, okDistance (Demo.args c true false) (a, 0) (Demo.X i, Demo.O i) = |a - Demo.X i| := by
    intro a i
    have : Demo.O i = 0 := by fin_cases i <;> rfl
    simp [okDistance, distance2, Demo.args, anisoDist2, effScaling, effAngle, rad, this, Real.sqrt_sq_eq_abs]
  match j, hq with
  | 0, hq =>
    obtain rfl : p = (0, 0) := by simpa [queryAt, Demo.pts] using hq.symm
    intro _ i hi
    beta_reduce at hi ⊢
    rw [key] at hi
    fin_cases i
    · refine ⟨by rw [key]; simp [Demo.X], .inr fun k hk => ?_⟩
      fin_cases k
      · exact absurd rfl hk
      · rw [key]; simp [Demo.X]; norm_num
    · exfalso; simp [Demo.X] at hi; norm_num at hi
  | 1, hq =>
    obtain rfl : p = (3, 0) := by simpa [queryAt, Demo.pts] using hq.symm
    intro _ i hi
    beta_reduce at hi ⊢
    rw [key] at hi
    exfalso
    fin_cases i <;> simp [Demo.X] at hi <;> norm_num at hi
  | j + 2, hq => simp [queryAt, Demo.pts] at hq

end
end PyKrige
