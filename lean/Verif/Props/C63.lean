import Verif.Props.C62
import Verif.Lemmas.Continuity
import Verif.Props.C02
import Mathlib.Analysis.SpecialFunctions.Pow.Asymptotics
import Mathlib.Analysis.SpecialFunctions.PolynomialExp

/-!
# C63: far away from all data

If the variogram levels off at `σ`, then far away from all data ordinary kriging answers with the best estimate of the mean
(weights that solve the kriging equations with zero right-hand sides) and the variance `σ` plus the variance of that estimate;
universal kriging answers with the fitted trend.  Beyond the range of a spherical variogram this holds exactly.
-/

set_option linter.unusedSectionVars false

namespace PyKrige
noncomputable section
open Matrix Spec Filter Topology

/-- The variogram tends to `σ` at large distances. -/
def Spec.LevelsOff (γ : ℝ → ℝ) (σ : ℝ) : Prop := ∀ ε > 0, ∃ R : ℝ, ∀ d, R ≤ d → |γ d - σ| < ε

/-- The variogram is constant `σ` from distance `R` on. -/
def Spec.ConstantFrom (γ : ℝ → ℝ) (R σ : ℝ) : Prop := ∀ d, R ≤ d → γ d = σ

/-- The weights of the best estimate of the mean: they sum to one, and `∑ⱼ Gᵢⱼ wⱼ` is the same number `m` for all `i`. -/
def Spec.MeanWeights {ι : Type} [Fintype ι] (G : ι → ι → ℝ) (w : ι → ℝ) (m : ℝ) : Prop :=
  ∑ i, w i = 1 ∧ ∀ i, ∑ j, G i j * w j = m

theorem Spec.MeanWeights.eqs {ι : Type} [Fintype ι] {G : ι → ι → ℝ} {w : ι → ℝ} {m : ℝ} (h : MeanWeights G w m) (σ : ℝ) :
    OKEqs G (fun _ => σ) w (m - σ) :=
  ⟨fun i => by rw [h.2 i]; simp, fun l => l.elim0, h.1⟩

theorem Spec.OKRegular.mean {n : ℕ} {G : Fin n → Fin n → ℝ} (hr : OKRegular G) (σ : ℝ) : ∃ w m, MeanWeights G w m ∧
    (∀ w' μ', OKEqs G (fun _ => σ) w' μ' → w' = w ∧ okVariance (fun _ => σ) w' μ' = 2 * σ - m) := by
  obtain ⟨w, ν, μ, e⟩ : ∃ w ν μ, KrigingEqs G (fun l : Fin 0 => l.elim0) 0 (fun l => l.elim0) 1 w ν μ :=
    ⟨_, _, _, inv_solves ((regular_iff_det G _).1 hr) 0 (fun l => l.elim0) 1⟩
  have hw : MeanWeights G w μ := ⟨e.unbiased, fun i => by have := e.stationary i; simp at this; linarith⟩
  refine ⟨w, μ, hw, fun w' μ' h => ?_⟩
  obtain ⟨rfl, -, rfl⟩ := KrigingEqs.unique hr h (hw.eqs σ)
  refine ⟨rfl, ?_⟩
  unfold okVariance krigingVariance
  rw [← Finset.sum_mul, h.unbiased]
  simp; ring

theorem Spec.OKRegular.near {n : ℕ} {G : Fin n → Fin n → ℝ} (hr : OKRegular G) (z : Fin n → ℝ) {σ : ℝ} {w : Fin n → ℝ} {m : ℝ}
    (hw : MeanWeights G w m) {ε : ℝ} (hε : 0 < ε) : ∃ δ > 0, ∀ g, (∀ i, |g i - σ| < δ) → ∀ w' μ', OKEqs G g w' μ' →
      |estimate w' z - estimate w z| < ε ∧ |okVariance g w' μ' - (2 * σ - m)| < ε := by
  have hc := (krigAnswer_continuous false G (fun l : Fin 0 => l.elim0) z).comp
    (Continuous.prodMk_left (fun l : Fin 0 => (l.elim0 : ℝ)) : Continuous fun g : Fin n → ℝ => (g, fun l : Fin 0 => (l.elim0 : ℝ)))
  have hcw : ContinuousWithinAt (fun g : Fin n → ℝ => krigAnswer false G (fun l : Fin 0 => l.elim0) z g (fun l => l.elim0))
      Set.univ (fun _ => σ) := hc.continuousAt.continuousWithinAt
  obtain ⟨δ, hδ, hh⟩ := eps_delta hcw hε
  refine ⟨δ, hδ, fun g hg w' μ' h => ?_⟩
  have := hh g trivial ((dist_pi_lt_iff hδ).2 fun i => by rw [Real.dist_eq]; exact hg i)
  rw [krigAnswer_eq hr false h, krigAnswer_eq hr false (hw.eqs σ)] at this
  refine ⟨this.1, ?_⟩
  have e : okVariance (fun _ => σ) w (m - σ) = 2 * σ - m := by
    unfold okVariance krigingVariance
    rw [← Finset.sum_mul, hw.1]
    simp; ring
  have := this.2
  rw [← e]
  exact this

theorem semivarTo_far {ι : Type} {exact : Bool} {γ : ℝ → ℝ} {d : ι → ℝ} (h : ∀ i, 1 / 10 ^ 10 < d i) :
    semivarTo exact γ d = fun i => γ (d i) := by
  funext i
  unfold semivarTo
  rw [if_neg fun hc => absurd hc.2 (not_le.2 (h i))]

/-- `OrdinaryKriging`: the answers tend to the estimate of the mean, with variance `σ + (σ - m)`. -/
theorem C63_far_2d {n : ℕ} {env : Env} {x y z : Fin n → ℝ} {args : OKArgs} {s : OK n}
    (h : OK.create env x y z args = .ok s) (hp : args.pseudoInv = false)
    {γ : ℝ → ℝ} (hγ : s.variogramFunction s.params = .ok γ) {exact : Bool} (hex : args.exactValues = .bool exact)
    {σ : ℝ} (hσ : LevelsOff γ σ) :
    ∃ (w : Fin n → ℝ) (m : ℝ), ∀ ε > 0, ∃ R : ℝ, ∀ (ea : ExecArgs) (r : ExecResult) (j : ℕ) (p : ℝ × ℝ), Admissible env args s ea.nClosest →
      ea.nClosest = none → s.execute env ea = .ok r → queryAt ea j = some p → maskedAt ea j = false →
      (∀ i, R ≤ okDistance args p (x i, y i)) →
      MeanWeights (semivar γ fun i k => okDistance args (x i, y i) (x k, y k)) w m ∧
      ∃ est var, r.z[j]? = some (some est) ∧ r.ss[j]? = some (some var) ∧
        |est - ∑ i, w i * z i| < ε ∧ |var - (2 * σ - m)| < ε := by
  by_cases hreg : OKRegular (semivar γ fun i k => okDistance args (x i, y i) (x k, y k))
  · obtain ⟨w, m, hw, -⟩ := hreg.mean σ
    refine ⟨w, m, fun ε hε => ?_⟩
    obtain ⟨δ, hδ, hh⟩ := hreg.near z (σ := σ) hw hε
    obtain ⟨R, hR⟩ := hσ δ hδ
    refine ⟨max R 1, fun ea r j p ha hn hr hq hm hfar => ⟨hw, ?_⟩⟩
    obtain ⟨-, ⟨w', μ', e⟩, hu⟩ := C47_unique_2d h ha hn hp hγ hex hr hq hm
    refine ⟨_, _, (hu w' μ' e).1, (hu w' μ' e).2, ?_⟩
    refine hh _ (fun i => ?_) w' μ' e
    rw [semivarTo_far fun i => lt_of_lt_of_le (by norm_num) ((le_max_right R 1).trans (hfar i))]
    exact hR _ ((le_max_left R 1).trans (hfar i))
  · exact ⟨0, 0, fun ε hε => ⟨0, fun ea r j p ha hn hr' hq hm => absurd (C47_unique_2d h ha hn hp hγ hex hr' hq hm).1 hreg⟩⟩

/-- `OrdinaryKriging`: where the variogram is constant, the answers are constant. -/
theorem C63_beyond_2d {n : ℕ} {env : Env} {x y z : Fin n → ℝ} {args : OKArgs} {s : OK n}
    (h : OK.create env x y z args = .ok s) (hp : args.pseudoInv = false)
    {γ : ℝ → ℝ} (hγ : s.variogramFunction s.params = .ok γ) {exact : Bool} (hex : args.exactValues = .bool exact)
    {R σ : ℝ} (hσ : ConstantFrom γ R σ) (hR : 1 / 10 ^ 10 < R) :
    ∃ (w : Fin n → ℝ) (m : ℝ), ∀ (ea : ExecArgs) (r : ExecResult) (j : ℕ) (p : ℝ × ℝ), Admissible env args s ea.nClosest →
      ea.nClosest = none → s.execute env ea = .ok r → queryAt ea j = some p → maskedAt ea j = false →
      (∀ i, R ≤ okDistance args p (x i, y i)) →
      MeanWeights (semivar γ fun i k => okDistance args (x i, y i) (x k, y k)) w m ∧
      r.z[j]? = some (some (∑ i, w i * z i)) ∧ r.ss[j]? = some (some (2 * σ - m)) := by
  by_cases hreg : OKRegular (semivar γ fun i k => okDistance args (x i, y i) (x k, y k))
  · obtain ⟨w, m, hw, hu'⟩ := hreg.mean σ
    refine ⟨w, m, fun ea r j p ha hn hr hq hm hfar => ⟨hw, ?_⟩⟩
    obtain ⟨-, ⟨w', μ', e⟩, hu⟩ := C47_unique_2d h ha hn hp hγ hex hr hq hm
    have hg : (semivarTo exact γ fun i => okDistance args p (x i, y i)) = fun _ => σ := by
      rw [semivarTo_far fun i => lt_of_lt_of_le hR (hfar i)]
      funext i
      exact hσ _ (hfar i)
    have := hu w' μ' e
    rw [hg] at e this
    obtain ⟨rfl, h2⟩ := hu' w' μ' e
    rw [h2] at this
    exact this
  · exact ⟨0, 0, fun ea r j p ha hn hr' hq hm => absurd (C47_unique_2d h ha hn hp hγ hex hr' hq hm).1 hreg⟩

/-- `OrdinaryKriging3D`: the answers tend to the estimate of the mean, with variance `σ + (σ - m)`. -/
theorem C63_far_3d {n : ℕ} {env : Env} {x y z v : Fin n → ℝ} {args : OK3DArgs} {s : OK3D n}
    (h : OK3D.create env x y z v args = .ok s) (hp : args.pseudoInv = false)
    {γ : ℝ → ℝ} (hγ : s.variogramFunction s.params = .ok γ) {exact : Bool} (hex : args.exactValues = .bool exact)
    {σ : ℝ} (hσ : LevelsOff γ σ) :
    ∃ (w : Fin n → ℝ) (m : ℝ), ∀ ε > 0, ∃ R : ℝ, ∀ (ea : ExecArgs3) (r : ExecResult) (j : ℕ) (p : ℝ × ℝ × ℝ), KnnSpec env →
      ea.nClosest = none → s.execute env ea = .ok r → queryAt3 ea j = some p → maskedAt3 ea j = false →
      (∀ i, R ≤ ok3Distance args p (x i, y i, z i)) →
      MeanWeights (semivar γ fun i k => ok3Distance args (x i, y i, z i) (x k, y k, z k)) w m ∧
      ∃ est var, r.z[j]? = some (some est) ∧ r.ss[j]? = some (some var) ∧
        |est - ∑ i, w i * v i| < ε ∧ |var - (2 * σ - m)| < ε := by
  by_cases hreg : OKRegular (semivar γ fun i k => ok3Distance args (x i, y i, z i) (x k, y k, z k))
  · obtain ⟨w, m, hw, -⟩ := hreg.mean σ
    refine ⟨w, m, fun ε hε => ?_⟩
    obtain ⟨δ, hδ, hh⟩ := hreg.near v (σ := σ) hw hε
    obtain ⟨R, hR⟩ := hσ δ hδ
    refine ⟨max R 1, fun ea r j p ha hn hr hq hm hfar => ⟨hw, ?_⟩⟩
    obtain ⟨-, ⟨w', μ', e⟩, hu⟩ := C47_unique_3d h ha (fun k e => by simp [hn] at e) hn hp hγ hex hr hq hm
    refine ⟨_, _, (hu w' μ' e).1, (hu w' μ' e).2, ?_⟩
    refine hh _ (fun i => ?_) w' μ' e
    rw [semivarTo_far fun i => lt_of_lt_of_le (by norm_num) ((le_max_right R 1).trans (hfar i))]
    exact hR _ ((le_max_left R 1).trans (hfar i))
  · exact ⟨0, 0, fun ε hε => ⟨0, fun ea r j p ha hn hr' hq hm => absurd (C47_unique_3d h ha (fun k e => by simp [hn] at e) hn hp hγ hex hr' hq hm).1 hreg⟩⟩

/-- `OrdinaryKriging3D`: where the variogram is constant, the answers are constant. -/
theorem C63_beyond_3d {n : ℕ} {env : Env} {x y z v : Fin n → ℝ} {args : OK3DArgs} {s : OK3D n}
    (h : OK3D.create env x y z v args = .ok s) (hp : args.pseudoInv = false)
    {γ : ℝ → ℝ} (hγ : s.variogramFunction s.params = .ok γ) {exact : Bool} (hex : args.exactValues = .bool exact)
    {R σ : ℝ} (hσ : ConstantFrom γ R σ) (hR : 1 / 10 ^ 10 < R) :
    ∃ (w : Fin n → ℝ) (m : ℝ), ∀ (ea : ExecArgs3) (r : ExecResult) (j : ℕ) (p : ℝ × ℝ × ℝ), KnnSpec env →
      ea.nClosest = none → s.execute env ea = .ok r → queryAt3 ea j = some p → maskedAt3 ea j = false →
      (∀ i, R ≤ ok3Distance args p (x i, y i, z i)) →
      MeanWeights (semivar γ fun i k => ok3Distance args (x i, y i, z i) (x k, y k, z k)) w m ∧
      r.z[j]? = some (some (∑ i, w i * v i)) ∧ r.ss[j]? = some (some (2 * σ - m)) := by
  by_cases hreg : OKRegular (semivar γ fun i k => ok3Distance args (x i, y i, z i) (x k, y k, z k))
  · obtain ⟨w, m, hw, hu'⟩ := hreg.mean σ
    refine ⟨w, m, fun ea r j p ha hn hr hq hm hfar => ⟨hw, ?_⟩⟩
    obtain ⟨-, ⟨w', μ', e⟩, hu⟩ := C47_unique_3d h ha (fun k e => by simp [hn] at e) hn hp hγ hex hr hq hm
    have hg : (semivarTo exact γ fun i => ok3Distance args p (x i, y i, z i)) = fun _ => σ := by
      rw [semivarTo_far fun i => lt_of_lt_of_le hR (hfar i)]
      funext i
      exact hσ _ (hfar i)
    have := hu w' μ' e
    rw [hg] at e this
    obtain ⟨rfl, h2⟩ := hu' w' μ' e
    rw [h2] at this
    exact this
  · exact ⟨0, 0, fun ea r j p ha hn hr' hq hm => absurd (C47_unique_3d h ha (fun k e => by simp [hn] at e) hn hp hγ hex hr' hq hm).1 hreg⟩

theorem dual_far {n : ℕ} {d : Fin n → ℝ} (hd : ∑ i, d i = 0) {g : Fin n → ℝ} {σ δ : ℝ} (hg : ∀ i, |g i - σ| ≤ δ) :
    |∑ i, d i * g i| ≤ (∑ i, |d i|) * δ := by
  have : ∑ i, d i * g i = ∑ i, d i * (g i - σ) := by
    simp only [mul_sub, Finset.sum_sub_distrib, ← Finset.sum_mul, hd]; ring
  rw [this, Finset.sum_mul]
  refine (Finset.abs_sum_le_sum_abs _ _).trans (Finset.sum_le_sum fun i _ => ?_)
  rw [abs_mul]
  exact mul_le_mul_of_nonneg_left (hg i) (abs_nonneg _)

/-- `UniversalKriging`: the estimates tend to the fitted trend (the generalised least squares fit: residuals `∑ₖ dₖ Gᵢₖ` with `d` orthogonal
to the constant and to the drift terms). -/
theorem C63_far_uk {n : ℕ} {env : Env} {x y z : Fin n → ℝ} {args : UKArgs} {s : UK n}
    (h : UK.create env x y z args = .ok s) (hp : args.pseudoInv = false)
    {γ : ℝ → ℝ} (hγ : s.variogramFunction s.params = .ok γ) {exact : Bool} (hex : args.exactValues = .bool exact)
    {σ : ℝ} (hσ : LevelsOff γ σ) :
    ∃ (b₀ : ℝ) (b : ℕ → ℝ), ∀ ε > 0, ∃ R : ℝ, ∀ (ea : UKExecArgs) (r : ExecResult) (j : ℕ) (p : ℝ × ℝ),
      ("specified" ∈ args.driftTerms → ea.toExec.backend = "vectorized") →
      s.execute ea = .ok r → queryAt ea.toExec j = some p → maskedAt ea.toExec j = false →
      (∀ i, R ≤ ukDistance args p (x i, y i)) →
      (∃ d : Fin n → ℝ, ∑ i, d i = 0 ∧ (∀ a : ℕ → ℝ, ∑ i : Fin n, d i * combine a (driftTerms2 args s.adjustPoint (specAtDatum args.specifiedDrift i) (x i, y i)) = 0) ∧
        ∀ i : Fin n, z i = b₀ + combine b (driftTerms2 args s.adjustPoint (specAtDatum args.specifiedDrift i) (x i, y i)) +
          ∑ k, d k * (semivar γ fun i k => ukDistance args (x i, y i) (x k, y k)) i k) ∧
      ∃ est, r.z[j]? = some (some est) ∧ |est - (b₀ + combine b (driftTerms2 args s.adjustPoint (specAtQuery ea j) p))| < ε := by
  obtain ⟨d, b₀, b, hh⟩ := C62_dual_uk h hp hγ hex
  refine ⟨b₀, b, fun ε hε => ?_⟩
  have hS : 0 ≤ ∑ i, |d i| := Finset.sum_nonneg fun i _ => abs_nonneg _
  obtain ⟨R, hR⟩ := hσ (ε / (∑ i, |d i| + 1)) (by positivity)
  refine ⟨max R 1, fun ea r j p hs hr hq hm hfar => ?_⟩
  obtain ⟨h1, h2, h3, h4⟩ := hh ea r j p hs hr hq hm
  refine ⟨⟨d, h1, h2, h3⟩, _, h4, ?_⟩
  rw [add_sub_cancel_left]
  refine (dual_far h1 (σ := σ) (δ := ε / (∑ i, |d i| + 1)) fun i => ?_).trans_lt ?_
  · rw [semivarTo_far fun i => lt_of_lt_of_le (by norm_num) ((le_max_right R 1).trans (hfar i))]
    exact (hR _ ((le_max_left R 1).trans (hfar i))).le
  · rw [mul_div_assoc', div_lt_iff₀ (by positivity)]
    nlinarith

/-- `UniversalKriging`: where the variogram is constant, the estimates are the trend. -/
theorem C63_beyond_uk {n : ℕ} {env : Env} {x y z : Fin n → ℝ} {args : UKArgs} {s : UK n}
    (h : UK.create env x y z args = .ok s) (hp : args.pseudoInv = false)
    {γ : ℝ → ℝ} (hγ : s.variogramFunction s.params = .ok γ) {exact : Bool} (hex : args.exactValues = .bool exact)
    {R σ : ℝ} (hσ : ConstantFrom γ R σ) (hR : 1 / 10 ^ 10 < R) :
    ∃ (b₀ : ℝ) (b : ℕ → ℝ), ∀ (ea : UKExecArgs) (r : ExecResult) (j : ℕ) (p : ℝ × ℝ),
      ("specified" ∈ args.driftTerms → ea.toExec.backend = "vectorized") →
      s.execute ea = .ok r → queryAt ea.toExec j = some p → maskedAt ea.toExec j = false →
      (∀ i, R ≤ ukDistance args p (x i, y i)) →
      (∃ d : Fin n → ℝ, ∑ i, d i = 0 ∧ (∀ a : ℕ → ℝ, ∑ i : Fin n, d i * combine a (driftTerms2 args s.adjustPoint (specAtDatum args.specifiedDrift i) (x i, y i)) = 0) ∧
        ∀ i : Fin n, z i = b₀ + combine b (driftTerms2 args s.adjustPoint (specAtDatum args.specifiedDrift i) (x i, y i)) +
          ∑ k, d k * (semivar γ fun i k => ukDistance args (x i, y i) (x k, y k)) i k) ∧
      r.z[j]? = some (some (b₀ + combine b (driftTerms2 args s.adjustPoint (specAtQuery ea j) p))) := by
  obtain ⟨d, b₀, b, hh⟩ := C62_dual_uk h hp hγ hex
  refine ⟨b₀, b, fun ea r j p hs hr hq hm hfar => ?_⟩
  obtain ⟨h1, h2, h3, h4⟩ := hh ea r j p hs hr hq hm
  refine ⟨⟨d, h1, h2, h3⟩, ?_⟩
  rw [h4, semivarTo_far fun i => lt_of_lt_of_le hR (hfar i)]
  rw [show (∑ i, d i * (fun i => γ (ukDistance args p (x i, y i))) i) = ∑ i, d i * σ from
    Finset.sum_congr rfl fun i _ => congrArg (d i * ·) (hσ _ (hfar i)), ← Finset.sum_mul, h1, zero_mul, add_zero]

/-- `UniversalKriging3D`: the estimates tend to the fitted trend (the generalised least squares fit: residuals `∑ₖ dₖ Gᵢₖ` with `d` orthogonal
to the constant and to the drift terms). -/
theorem C63_far_uk3d {n : ℕ} {env : Env} {x y z v : Fin n → ℝ} {args : UK3DArgs} {s : UK3D n}
    (h : UK3D.create env x y z v args = .ok s) (hp : args.pseudoInv = false)
    {γ : ℝ → ℝ} (hγ : s.variogramFunction s.params = .ok γ) {exact : Bool} (hex : args.exactValues = .bool exact)
    {σ : ℝ} (hσ : LevelsOff γ σ) :
    ∃ (b₀ : ℝ) (b : ℕ → ℝ), ∀ ε > 0, ∃ R : ℝ, ∀ (ea : UK3DExecArgs) (r : ExecResult) (j : ℕ) (p : ℝ × ℝ × ℝ),
      ("specified" ∈ args.driftTerms → ea.toExec.backend = "vectorized") →
      s.execute ea = .ok r → queryAt3 ea.toExec j = some p → maskedAt3 ea.toExec j = false →
      (∀ i, R ≤ uk3Distance args p (x i, y i, z i)) →
      (∃ d : Fin n → ℝ, ∑ i, d i = 0 ∧ (∀ a : ℕ → ℝ, ∑ i : Fin n, d i * combine a (driftTerms3 args s.adjustPoint (specAtDatum args.specifiedDrift i) (x i, y i, z i)) = 0) ∧
        ∀ i : Fin n, v i = b₀ + combine b (driftTerms3 args s.adjustPoint (specAtDatum args.specifiedDrift i) (x i, y i, z i)) +
          ∑ k, d k * (semivar γ fun i k => uk3Distance args (x i, y i, z i) (x k, y k, z k)) i k) ∧
      ∃ est, r.z[j]? = some (some est) ∧ |est - (b₀ + combine b (driftTerms3 args s.adjustPoint (specAtQuery3 ea j) p))| < ε := by
  obtain ⟨d, b₀, b, hh⟩ := C62_dual_uk3d h hp hγ hex
  refine ⟨b₀, b, fun ε hε => ?_⟩
  have hS : 0 ≤ ∑ i, |d i| := Finset.sum_nonneg fun i _ => abs_nonneg _
  obtain ⟨R, hR⟩ := hσ (ε / (∑ i, |d i| + 1)) (by positivity)
  refine ⟨max R 1, fun ea r j p hs hr hq hm hfar => ?_⟩
  obtain ⟨h1, h2, h3, h4⟩ := hh ea r j p hs hr hq hm
  refine ⟨⟨d, h1, h2, h3⟩, _, h4, ?_⟩
  rw [add_sub_cancel_left]
  refine (dual_far h1 (σ := σ) (δ := ε / (∑ i, |d i| + 1)) fun i => ?_).trans_lt ?_
  · rw [semivarTo_far fun i => lt_of_lt_of_le (by norm_num) ((le_max_right R 1).trans (hfar i))]
    exact (hR _ ((le_max_left R 1).trans (hfar i))).le
  · rw [mul_div_assoc', div_lt_iff₀ (by positivity)]
    nlinarith

/-- `UniversalKriging3D`: where the variogram is constant, the estimates are the trend. -/
theorem C63_beyond_uk3d {n : ℕ} {env : Env} {x y z v : Fin n → ℝ} {args : UK3DArgs} {s : UK3D n}
    (h : UK3D.create env x y z v args = .ok s) (hp : args.pseudoInv = false)
    {γ : ℝ → ℝ} (hγ : s.variogramFunction s.params = .ok γ) {exact : Bool} (hex : args.exactValues = .bool exact)
    {R σ : ℝ} (hσ : ConstantFrom γ R σ) (hR : 1 / 10 ^ 10 < R) :
    ∃ (b₀ : ℝ) (b : ℕ → ℝ), ∀ (ea : UK3DExecArgs) (r : ExecResult) (j : ℕ) (p : ℝ × ℝ × ℝ),
      ("specified" ∈ args.driftTerms → ea.toExec.backend = "vectorized") →
      s.execute ea = .ok r → queryAt3 ea.toExec j = some p → maskedAt3 ea.toExec j = false →
      (∀ i, R ≤ uk3Distance args p (x i, y i, z i)) →
      (∃ d : Fin n → ℝ, ∑ i, d i = 0 ∧ (∀ a : ℕ → ℝ, ∑ i : Fin n, d i * combine a (driftTerms3 args s.adjustPoint (specAtDatum args.specifiedDrift i) (x i, y i, z i)) = 0) ∧
        ∀ i : Fin n, v i = b₀ + combine b (driftTerms3 args s.adjustPoint (specAtDatum args.specifiedDrift i) (x i, y i, z i)) +
          ∑ k, d k * (semivar γ fun i k => uk3Distance args (x i, y i, z i) (x k, y k, z k)) i k) ∧
      r.z[j]? = some (some (b₀ + combine b (driftTerms3 args s.adjustPoint (specAtQuery3 ea j) p))) := by
  obtain ⟨d, b₀, b, hh⟩ := C62_dual_uk3d h hp hγ hex
  refine ⟨b₀, b, fun ea r j p hs hr hq hm hfar => ?_⟩
  obtain ⟨h1, h2, h3, h4⟩ := hh ea r j p hs hr hq hm
  refine ⟨⟨d, h1, h2, h3⟩, ?_⟩
  rw [h4, semivarTo_far fun i => lt_of_lt_of_le hR (hfar i)]
  rw [show (∑ i, d i * (fun i => γ (uk3Distance args p (x i, y i, z i))) i) = ∑ i, d i * σ from
    Finset.sum_congr rfl fun i _ => congrArg (d i * ·) (hσ _ (hfar i)), ← Finset.sum_mul, h1, zero_mul, add_zero]

/-- The spherical model is constant, partial sill plus nugget, from its range on. -/
theorem C63_spherical {psill range_ nugget : ℝ} (hr : 0 < range_) {γ : ℝ → ℝ}
    (hγ : Builtin "spherical" [psill, range_, nugget] γ) : ConstantFrom γ range_ (psill + nugget) := by
  obtain rfl := builtin_spherical.1 hγ
  intro d hd
  unfold sphericalFormula
  split
  · obtain rfl : d = range_ := le_antisymm ‹_› hd
    field_simp
    ring
  · rfl

theorem levelsOff_of_tendsto {γ : ℝ → ℝ} {σ : ℝ} (h : Tendsto γ atTop (𝓝 σ)) : LevelsOff γ σ := by
  intro ε hε
  obtain ⟨R, hR⟩ := eventually_atTop.1 (Metric.tendsto_nhds.1 h ε hε)
  exact ⟨R, fun d hd => by rw [← Real.dist_eq]; exact hR d hd⟩

/-- The four models with a sill level off at partial sill plus nugget. -/
theorem C63_sill {m : String} (hm : m ∈ ["gaussian", "spherical", "exponential", "hole-effect"]) {psill range_ nugget : ℝ}
    (hr : 0 < range_) {γ : ℝ → ℝ} (hγ : Builtin m [psill, range_, nugget] γ) :
    LevelsOff γ (psill + nugget) := by
  have hexp : Tendsto (fun d : ℝ => Real.exp (-d / (range_ / 3))) atTop (𝓝 0) := by
    refine Real.tendsto_exp_neg_atTop_nhds_zero.comp (tendsto_id.atTop_div_const (by positivity : 0 < range_ / 3)) |>.congr fun d => ?_
    simp [neg_div]
  simp only [List.mem_cons, List.not_mem_nil, or_false] at hm
  rcases hm with rfl | rfl | rfl | rfl
  · obtain rfl := builtin_gaussian.1 hγ
    refine levelsOff_of_tendsto ?_
    have : Tendsto (fun d : ℝ => Real.exp (-(d ^ 2) / (range_ * 4 / 7) ^ 2)) atTop (𝓝 0) := by
      refine Real.tendsto_exp_neg_atTop_nhds_zero.comp ((tendsto_pow_atTop two_ne_zero).atTop_div_const
        (by positivity : 0 < (range_ * 4 / 7) ^ 2)) |>.congr fun d => ?_
      simp [neg_div]
    have := ((this.const_sub 1).const_mul psill).add_const nugget
    rw [sub_zero, mul_one] at this
    exact this
  · intro ε hε
    exact ⟨range_, fun d hd => by rw [C63_spherical hr hγ d hd, sub_self, abs_zero]; exact hε⟩
  · obtain rfl := builtin_exponential.1 hγ
    refine levelsOff_of_tendsto ?_
    have := ((hexp.const_sub 1).const_mul psill).add_const nugget
    rw [sub_zero, mul_one] at this
    exact this
  · obtain rfl := builtin_hole.1 hγ
    refine levelsOff_of_tendsto ?_
    have h1 : Tendsto (fun d : ℝ => d / (range_ / 3) * Real.exp (-d / (range_ / 3))) atTop (𝓝 0) := by
      have := (Real.tendsto_pow_mul_exp_neg_atTop_nhds_zero 1).comp
        (tendsto_id.atTop_div_const (by positivity : 0 < range_ / 3))
      refine this.congr fun d => ?_
      simp [neg_div]
    have h2 : Tendsto (fun d : ℝ => (1 - d / (range_ / 3)) * Real.exp (-d / (range_ / 3))) atTop (𝓝 0) := by
      have := hexp.sub h1
      rw [sub_zero] at this
      refine this.congr fun d => by ring
    have := ((h2.const_sub 1).const_mul psill).add_const nugget
    rw [sub_zero, mul_one] at this
    exact this

end
end PyKrige
