import Verif.Props.C28
import Verif.Examples.More

/-!
# C49: the kriging variance is at most twice the semivariance to any datum

For ordinary kriging with all data, and with a moving window if the variogram does not decrease: near a datum the
variance is small.  (The predictor that simply copies the datum has that error.)
-/

set_option linter.unusedSectionVars false

namespace PyKrige
noncomputable section
open Matrix Spec

/-- The best predictor is at least as good as copying one of the data. -/
theorem Spec.IsBlue.le_copy {n : ℕ} {S : Set (Fin n)} {γ : ℝ → ℝ} {D : Fin n → Fin n → ℝ} {g : Fin n → ℝ} {z : Fin n → ℝ}
    {est var : ℝ} (h : IsBlue S (semivar γ D) g (fun _ => []) [] z est var) {i : Fin n} (hi : i ∈ S) : var ≤ 2 * g i := by
  refine (h.best _ (unbiased_single hi)).trans (le_of_eq ?_)
  unfold errorVariance
  have e' : semivar γ D i i = 0 := by simp [semivar]
  simp [Pi.single_apply, e']

theorem Spec.IsBlue.nonempty {n : ℕ} {S : Set (Fin n)} {G : Fin n → Fin n → ℝ} {g : Fin n → ℝ} {D : Fin n → List ℝ}
    {f : List ℝ} {z : Fin n → ℝ} {est var : ℝ} (h : IsBlue S G g D f z est var) : ∃ i, i ∈ S := by
  by_contra hc
  push Not at hc
  obtain ⟨w, hw, -⟩ := h.exists_weights
  have := hw.sum_one
  simp [fun i => hw.support i (hc i)] at this

theorem semivarTo_le {ι : Type} {exact : Bool} {γ : ℝ → ℝ} {d : ι → ℝ} {i : ι} (h : 0 ≤ γ (d i)) :
    semivarTo exact γ d i ≤ γ (d i) := by
  unfold semivarTo
  split_ifs
  · exact h
  · exact le_refl _

theorem okDistance_nonneg (args : OKArgs) (p q : ℝ × ℝ) : 0 ≤ okDistance args p q := by
  unfold okDistance distance2
  split
  · exact Real.sqrt_nonneg _
  · exact mul_nonneg (by positivity) (Real.arccos_nonneg _)

theorem ok3Distance_nonneg (args : OK3DArgs) (p q : ℝ × ℝ × ℝ) : 0 ≤ ok3Distance args p q := Real.sqrt_nonneg _

/-- `OrdinaryKriging` with all data. -/
theorem C49_bound_2d {n : ℕ} {env : Env} {x y z : Fin n → ℝ} {args : OKArgs} {s : OK n}
    (h : OK.create env x y z args = .ok s) {ea : ExecArgs} (ha : Admissible env args s ea.nClosest)
    (hn : ea.nClosest = none) {γ : ℝ → ℝ} (hγ : s.variogramFunction s.params = .ok γ)
    (hG : CondNeg (semivar γ fun i i' => okDistance args (x i, y i) (x i', y i'))) (hpos : ∀ d, 0 ≤ d → 0 ≤ γ d)
    (hp : args.pseudoInv = false)
    {r : ExecResult} (hr : s.execute env ea = .ok r) {j : ℕ} {p : ℝ × ℝ} (hq : queryAt ea j = some p)
    (hm : maskedAt ea j = false) :
    ∃ var, r.ss[j]? = some (some var) ∧ ∀ i, var ≤ 2 * γ (okDistance args p (x i, y i)) := by
  obtain ⟨exact, hex⟩ : ∃ e, args.exactValues = .bool e := ⟨_, (OK.create_fields h).2.1⟩
  obtain ⟨S, hS, -, est, var, -, hv, hb⟩ := C28_best_2d h ha hγ hex hG hr hq hm (.inl hp)
  refine ⟨var, hv, fun i => (hb.le_copy (i := i) (by simp [hS hn])).trans ?_⟩
  have := semivarTo_le (exact := exact) (γ := γ) (d := fun i => okDistance args p (x i, y i)) (i := i)
    (hpos _ (okDistance_nonneg args _ _))
  linarith

/-- `OrdinaryKriging` with a moving window: also for the data outside the window. -/
theorem C49_window_2d {n : ℕ} {env : Env} {x y z : Fin n → ℝ} {args : OKArgs} {s : OK n}
    (h : OK.create env x y z args = .ok s) {ea : ExecArgs} (ha : Admissible env args s ea.nClosest)
    {k : ℕ} (hk : ea.nClosest = some (k : ℤ)) {γ : ℝ → ℝ} (hγ : s.variogramFunction s.params = .ok γ)
    (hG : CondNeg (semivar γ fun i i' => okDistance args (x i, y i) (x i', y i'))) (hpos : ∀ d, 0 ≤ d → 0 ≤ γ d)
    (hmono : ∀ d e, 0 ≤ d → d ≤ e → γ d ≤ γ e)
    {r : ExecResult} (hr : s.execute env ea = .ok r) {j : ℕ} {p : ℝ × ℝ} (hq : queryAt ea j = some p)
    (hm : maskedAt ea j = false) :
    ∃ var, r.ss[j]? = some (some var) ∧ ∀ i, var ≤ 2 * γ (okDistance args p (x i, y i)) := by
  obtain ⟨exact, hex⟩ : ∃ e, args.exactValues = .bool e := ⟨_, (OK.create_fields h).2.1⟩
  obtain ⟨S, -, hS, est, var, -, hv, hb⟩ := C28_best_2d h ha hγ hex hG hr hq hm (.inr (.inl (by simp [hk])))
  have key : ∀ i ∈ S, var ≤ 2 * γ (okDistance args p (x i, y i)) := fun i hi => (hb.le_copy (i := i) hi).trans (by
    have := semivarTo_le (exact := exact) (γ := γ) (d := fun i => okDistance args p (x i, y i)) (i := i)
      (hpos _ (okDistance_nonneg args _ _))
    linarith)
  refine ⟨var, hv, fun i => ?_⟩
  by_cases hi : i ∈ S
  · exact key i hi
  · obtain ⟨i', hi'⟩ := hb.nonempty
    have h1 := hmono _ _ (okDistance_nonneg args _ _) ((hS k hk).2 i' hi' i hi)
    have h2 := key i' hi'
    linarith

/-- `OrdinaryKriging3D` with all data. -/
theorem C49_bound_3d {n : ℕ} {env : Env} {x y z v : Fin n → ℝ} {args : OK3DArgs} {s : OK3D n}
    (h : OK3D.create env x y z v args = .ok s) {ea : ExecArgs3} (hkn : KnnSpec env) (hw : WindowFits n ea.nClosest)
    (hn : ea.nClosest = none) {γ : ℝ → ℝ} (hγ : s.variogramFunction s.params = .ok γ)
    (hG : CondNeg (semivar γ fun i i' => ok3Distance args (x i, y i, z i) (x i', y i', z i'))) (hpos : ∀ d, 0 ≤ d → 0 ≤ γ d)
    (hp : args.pseudoInv = false)
    {r : ExecResult} (hr : s.execute env ea = .ok r) {j : ℕ} {p : ℝ × ℝ × ℝ} (hq : queryAt3 ea j = some p)
    (hm : maskedAt3 ea j = false) :
    ∃ var, r.ss[j]? = some (some var) ∧ ∀ i, var ≤ 2 * γ (ok3Distance args p (x i, y i, z i)) := by
  obtain ⟨exact, hex⟩ : ∃ e, args.exactValues = .bool e := ⟨_, (OK3D.create_fields h).2.1⟩
  obtain ⟨S, hS, -, est, var, -, hv, hb⟩ := C28_best_3d h hkn hw hγ hex hG hr hq hm (.inl hp)
  refine ⟨var, hv, fun i => (hb.le_copy (i := i) (by simp [hS hn])).trans ?_⟩
  have := semivarTo_le (exact := exact) (γ := γ) (d := fun i => ok3Distance args p (x i, y i, z i)) (i := i)
    (hpos _ (ok3Distance_nonneg args _ _))
  linarith

/-- `OrdinaryKriging3D` with a moving window: also for the data outside the window. -/
theorem C49_window_3d {n : ℕ} {env : Env} {x y z v : Fin n → ℝ} {args : OK3DArgs} {s : OK3D n}
    (h : OK3D.create env x y z v args = .ok s) {ea : ExecArgs3} (hkn : KnnSpec env) (hw : WindowFits n ea.nClosest)
    {k : ℕ} (hk : ea.nClosest = some (k : ℤ)) {γ : ℝ → ℝ} (hγ : s.variogramFunction s.params = .ok γ)
    (hG : CondNeg (semivar γ fun i i' => ok3Distance args (x i, y i, z i) (x i', y i', z i'))) (hpos : ∀ d, 0 ≤ d → 0 ≤ γ d)
    (hmono : ∀ d e, 0 ≤ d → d ≤ e → γ d ≤ γ e)
    {r : ExecResult} (hr : s.execute env ea = .ok r) {j : ℕ} {p : ℝ × ℝ × ℝ} (hq : queryAt3 ea j = some p)
    (hm : maskedAt3 ea j = false) :
    ∃ var, r.ss[j]? = some (some var) ∧ ∀ i, var ≤ 2 * γ (ok3Distance args p (x i, y i, z i)) := by
  obtain ⟨exact, hex⟩ : ∃ e, args.exactValues = .bool e := ⟨_, (OK3D.create_fields h).2.1⟩
  obtain ⟨S, -, hS, est, var, -, hv, hb⟩ := C28_best_3d h hkn hw hγ hex hG hr hq hm (.inr (.inl (by simp [hk])))
  have key : ∀ i ∈ S, var ≤ 2 * γ (ok3Distance args p (x i, y i, z i)) := fun i hi => (hb.le_copy (i := i) hi).trans (by
    have := semivarTo_le (exact := exact) (γ := γ) (d := fun i => ok3Distance args p (x i, y i, z i)) (i := i)
      (hpos _ (ok3Distance_nonneg args _ _))
    linarith)
  refine ⟨var, hv, fun i => ?_⟩
  by_cases hi : i ∈ S
  · exact key i hi
  · obtain ⟨i', hi'⟩ := hb.nonempty
    have h1 := hmono _ _ (ok3Distance_nonneg args _ _) ((hS k hk).2 i' hi' i hi)
    have h2 := key i' hi'
    linarith

/-- The built-in models with admissible parameters are non-negative and do not decrease. -/
theorem C49_builtin {m : String} {ps : List ℝ} {γ : ℝ → ℝ} (hv : ValidModel m ps) (hb : Builtin m ps γ) :
    (∀ d, 0 ≤ d → 0 ≤ γ d) ∧ ∀ d e, 0 ≤ d → d ≤ e → γ d ≤ γ e := by
  have hmono : ∀ d e, 0 ≤ d → d ≤ e → γ d ≤ γ e := by
    rcases hv with ⟨a, c, rfl, rfl, ha, hc⟩ | ⟨a, p, c, rfl, rfl, ha, h1, h2, hc⟩ | ⟨a, r, c, hm, rfl, ha, hr, hc⟩
    · exact C02_monotone a 1 c ha one_pos γ (.inl hb)
    · exact C02_monotone a p c ha h1 γ (.inr ⟨_, by simp, hb⟩)
    · exact C02_monotone a r c ha hr γ (.inr ⟨_, by simp at hm ⊢; tauto, hb⟩)
  refine ⟨fun d hd => le_trans ?_ (hmono 0 d le_rfl hd), hmono⟩
  rcases hv with ⟨a, c, rfl, rfl, ha, hc⟩ | ⟨a, p, c, rfl, rfl, ha, h1, h2, hc⟩ | ⟨a, r, c, hm, rfl, ha, hr, hc⟩
  · rw [builtin_linear.1 hb]; simpa [linearFormula] using hc
  · rw [builtin_power.1 hb]; simpa [powerFormula, Real.zero_rpow h1.ne'] using hc
  · simp only [List.mem_cons, List.not_mem_nil, or_false] at hm
    rcases hm with rfl | rfl | rfl
    · rw [builtin_gaussian.1 hb]; simpa [gaussianFormula] using hc
    · rw [builtin_exponential.1 hb]; simpa [exponentialFormula] using hc
    · rw [builtin_spherical.1 hb]; simpa [sphericalFormula, hr.le] using hc

/-- A moving window of two of four data, spherical variogram. -/
example (z : Fin 4 → ℝ) (p : ℝ × ℝ) : ∃ s γ r var, OK.create stdEnv Demo.x4 Demo.y4 z (Demo.any "spherical" [3, 2, 1]) = .ok s ∧
    s.variogramFunction s.params = .ok γ ∧
    s.execute stdEnv { Demo.pts [p] "loop" with nClosest := some 2 } = .ok r ∧ r.ss[0]? = some (some var) ∧
    ∀ i, var ≤ 2 * γ (okDistance (Demo.any "spherical" [3, 2, 1]) p (Demo.x4 i, Demo.y4 i)) := by
  obtain ⟨s, h, hp, ha, hr⟩ := Demo.any_ok (n := 4) (by norm_num) z Demo.sph_valid Demo.sph_grows Demo.inj4
  obtain ⟨hb, -, -, γ, hγ, hval, -⟩ := Demo.sph_valid.builtin
  obtain ⟨hev, -⟩ := chosen_evaluates hγ hb (OK.create_function h (m := "spherical") rfl)
  obtain ⟨e, he⟩ := okDistance_embed (args := Demo.any "spherical" [3, 2, 1]) rfl
  have hw := Demo.pts_wellPosed [p] "loop"
  obtain ⟨r, hr⟩ := hr { Demo.pts [p] "loop" with nClosest := some 2 } hw.1
    (by intro k hk; cases hk; norm_num) (by intro k hk; cases hk; norm_num) hw.2 (.inl rfl)
  rw [← hp] at hev
  obtain ⟨h1, h2⟩ := C49_builtin Demo.sph_valid hγ
  obtain ⟨var, hv, hle⟩ := C49_window_2d h (ea := { Demo.pts [p] "loop" with nClosest := some 2 })
    (ha _ (by intro k hk; cases hk; norm_num)) (k := 2) rfl hev
    (hval.data he fun i => (Demo.x4 i, Demo.y4 i)) h1 h2 hr (j := 0) (p := p) (by simp [queryAt, Demo.pts]) rfl
  exact ⟨s, γ, r, var, h, hev, hr, hv, hle⟩

end
end PyKrige
