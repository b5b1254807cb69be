import Verif.Examples.Mono
import Verif.Props.C63

/-!
C62 and C63 at work: four data, any values, spherical variogram with range 2; queries far to the right.
-/

set_option linter.unusedSectionVars false

namespace PyKrige.Demo
noncomputable section
open Spec

theorem x4_le (i : Fin 4) : x4 i ≤ 2 := by fin_cases i <;> norm_num [x4]

theorem sph_eq {γ : ℝ → ℝ} (hγ : Builtin "spherical" (listMeaning "spherical" [3, 2, 1]) γ) : ConstantFrom γ 2 3 := by
  have := C63_spherical (psill := 2) (range_ := 2) (nugget := 1) (γ := γ) (by norm_num) (by
    convert hγ using 1
    simp [listMeaning]; norm_num)
  norm_num at this
  exact this

theorem right_far {p q : ℝ × ℝ} (h : q.1 + 2 ≤ p.1) : 2 ≤ Real.sqrt ((p.1 - q.1) ^ 2 + (p.2 - q.2) ^ 2) := by
  refine Real.le_sqrt_of_sq_le ?_
  nlinarith [sq_nonneg (p.2 - q.2)]

/-- C62, C63 (2D): one function for all queries; the same answers at all points with `x ≥ 4`. -/
example (z : Fin 4 → ℝ) : ∃ s, OK.create stdEnv x4 y4 z (any "spherical" [3, 2, 1]) = .ok s ∧ ∃ γ, s.variogramFunction s.params = .ok γ ∧
    ∃ d : Fin 4 → ℝ, ∃ b₀ est var, ∑ i, d i = 0 ∧ ∀ p : ℝ × ℝ, ∃ r r', s.execute stdEnv (pts [p] "vectorized") = .ok r ∧
      s.execute stdEnv (pts [p] "loop") = .ok r' ∧
      r.z[0]? = some (some (b₀ + ∑ i, d i * (semivarTo true γ fun i => okDistance (any "spherical" [3, 2, 1]) p (x4 i, y4 i)) i)) ∧
      (4 ≤ p.1 → r'.z[0]? = some (some est) ∧ r'.ss[0]? = some (some var)) := by
  obtain ⟨s, h, hp, ha, hr⟩ := any_ok (n := 4) (by norm_num) z sph_valid sph_grows inj4
  obtain ⟨hb, -, -, γ, hγ, hval, -⟩ := sph_valid.builtin
  obtain ⟨hev, -⟩ := chosen_evaluates hγ hb (OK.create_function h (m := "spherical") rfl)
  rw [← hp] at hev
  obtain ⟨d, b₀, hd⟩ := C62_dual_2d h rfl hev (exact := true) rfl
  obtain ⟨w, m, hw⟩ := C63_beyond_2d h rfl hev (exact := true) rfl (sph_eq hγ) (by norm_num)
  have hrun : ∀ p : ℝ × ℝ, ∃ r r', s.execute stdEnv (pts [p] "vectorized") = .ok r ∧ s.execute stdEnv (pts [p] "loop") = .ok r' := by
    intro p
    have hw := pts_wellPosed [p] "vectorized"
    have hw' := pts_wellPosed [p] "loop"
    obtain ⟨r, hr1⟩ := hr _ hw.1 (by intro k hk; cases hk) (by intro k hk; cases hk) hw.2 (.inr (.inl ⟨rfl, rfl⟩))
    obtain ⟨r', hr'⟩ := hr _ hw'.1 (by intro k hk; cases hk) (by intro k hk; cases hk) hw'.2 (.inl rfl)
    exact ⟨r, r', hr1, hr'⟩
  refine ⟨s, h, γ, hev, d, b₀, ∑ i, w i * z i, 2 * 3 - m, ?_, fun p => ?_⟩
  · obtain ⟨r, r', hr, -⟩ := hrun 0
    exact (hd _ r 0 0 (ha _ (by intro k hk; cases hk)) rfl hr (by simp [queryAt, pts]) rfl).1
  · obtain ⟨r, r', hr, hr'⟩ := hrun p
    refine ⟨r, r', hr, hr', (hd _ r 0 p (ha _ (by intro k hk; cases hk)) rfl hr (by simp [queryAt, pts]) rfl).2.2, fun hp => ?_⟩
    refine (hw _ r' 0 p (ha _ (by intro k hk; cases hk)) rfl hr' (by simp [queryAt, pts]) rfl fun i => ?_).2
    simpa [okDistance, distance2, any, effScaling, effAngle, anisoDist2, rad] using right_far (p := p) (q := (x4 i, y4 i)) (by linarith [x4_le i])

/-- C62, C63 (3D): one function for all queries; the same answers at all points with `x ≥ 4`. -/
example (v : Fin 4 → ℝ) : ∃ s, OK3D.create stdEnv x4 y4 z4 v (any3 "spherical" [3, 2, 1]) = .ok s ∧ ∃ γ, s.variogramFunction s.params = .ok γ ∧
    ∃ d : Fin 4 → ℝ, ∃ b₀ est var, ∑ i, d i = 0 ∧ ∀ p : ℝ × ℝ × ℝ, ∃ r r', s.execute stdEnv (pts3 [p] "vectorized") = .ok r ∧
      s.execute stdEnv (pts3 [p] "loop") = .ok r' ∧
      r.z[0]? = some (some (b₀ + ∑ i, d i * (semivarTo true γ fun i => ok3Distance (any3 "spherical" [3, 2, 1]) p (x4 i, y4 i, z4 i)) i)) ∧
      (4 ≤ p.1 → r'.z[0]? = some (some est) ∧ r'.ss[0]? = some (some var)) := by
  obtain ⟨s, h, hp, hr⟩ := any3_ok (n := 4) (by norm_num) v sph_valid sph_grows inj4'
  obtain ⟨hb, -, -, γ, hγ, hval, -⟩ := sph_valid.builtin
  obtain ⟨hev, -⟩ := chosen_evaluates hγ hb (OK3D.create_function h (m := "spherical") rfl)
  rw [← hp] at hev
  obtain ⟨d, b₀, hd⟩ := C62_dual_3d h rfl hev (exact := true) rfl
  obtain ⟨w, m, hw⟩ := C63_beyond_3d h rfl hev (exact := true) rfl (sph_eq hγ) (by norm_num)
  have hrun : ∀ p : ℝ × ℝ × ℝ, ∃ r r', s.execute stdEnv (pts3 [p] "vectorized") = .ok r ∧ s.execute stdEnv (pts3 [p] "loop") = .ok r' := by
    intro p
    have hw := pts_wellPosed3 [p] "vectorized"
    have hw' := pts_wellPosed3 [p] "loop"
    obtain ⟨r, hr1⟩ := hr _ hw.1 (by intro k hk; cases hk) (by intro k hk; cases hk) hw.2 (.inr ⟨rfl, rfl⟩)
    obtain ⟨r', hr'⟩ := hr _ hw'.1 (by intro k hk; cases hk) (by intro k hk; cases hk) hw'.2 (.inl rfl)
    exact ⟨r, r', hr1, hr'⟩
  refine ⟨s, h, γ, hev, d, b₀, ∑ i, w i * v i, 2 * 3 - m, ?_, fun p => ?_⟩
  · obtain ⟨r, r', hr, -⟩ := hrun 0
    exact (hd _ r 0 0 stdEnv_knn rfl hr (by simp [queryAt3, pts3]) rfl).1
  · obtain ⟨r, r', hr, hr'⟩ := hrun p
    refine ⟨r, r', hr, hr', (hd _ r 0 p stdEnv_knn rfl hr (by simp [queryAt3, pts3]) rfl).2.2, fun hp => ?_⟩
    refine (hw _ r' 0 p stdEnv_knn rfl hr' (by simp [queryAt3, pts3]) rfl fun i => ?_).2
    simp [ok3Distance, distance3, rotX, rotY, rotZ, any3, effAniso, rad]
    refine Real.le_sqrt_of_sq_le ?_
    nlinarith [x4_le i, sq_nonneg (p.2.1 - y4 i), sq_nonneg (p.2.2 - z4 i)]

/-- C62, C63 (2D universal kriging, regional linear drift): one function for all queries, the trend at all points with `x ≥ 4`. -/
example (z : Fin 4 → ℝ) : ∃ s, UK.create stdEnv x4 y4 z (uany "spherical" [3, 2, 1]) = .ok s ∧ ∃ γ, s.variogramFunction s.params = .ok γ ∧
    ∃ d : Fin 4 → ℝ, ∃ b₀ b b₀' b', ∑ i, d i = 0 ∧ ∀ p : ℝ × ℝ, ∃ r r', s.execute { toExec := pts [p] "vectorized" } = .ok r ∧
      s.execute { toExec := pts [p] "loop" } = .ok r' ∧
      r.z[0]? = some (some (b₀ + combine b (driftTerms2 (uany "spherical" [3, 2, 1]) s.adjustPoint [] p) +
        ∑ i, d i * (semivarTo true γ fun i => ukDistance (uany "spherical" [3, 2, 1]) p (x4 i, y4 i)) i)) ∧
      (4 ≤ p.1 → r'.z[0]? = some (some (b₀' + combine b' (driftTerms2 (uany "spherical" [3, 2, 1]) s.adjustPoint [] p)))) := by
  obtain ⟨s, h, hp, -, hr⟩ := uany_ok (n := 4) (by norm_num) z sph_valid sph_grows inj4 plane4
  obtain ⟨hb, -, -, γ, hγ, hval, -⟩ := sph_valid.builtin
  obtain ⟨hev, -⟩ := chosen_evaluates hγ hb (UK.create_function h (m := "spherical") rfl)
  rw [← hp] at hev
  obtain ⟨d, b₀, b, hd⟩ := C62_dual_uk h rfl hev (exact := true) rfl
  obtain ⟨b₀', b', hw⟩ := C63_beyond_uk h rfl hev (exact := true) rfl (sph_eq hγ) (by norm_num)
  have hs : "specified" ∉ (uany "spherical" [3, 2, 1]).driftTerms := by simp [uany]
  have hrun : ∀ p : ℝ × ℝ, ∃ r r', s.execute { toExec := pts [p] "vectorized" } = .ok r ∧ s.execute { toExec := pts [p] "loop" } = .ok r' := by
    intro p
    have hw := pts_wellPosed [p] "vectorized"
    have hw' := pts_wellPosed [p] "loop"
    obtain ⟨r, hr1⟩ := hr { toExec := pts [p] "vectorized" } hw.1 hw.2 (.inl rfl)
    obtain ⟨r', hr'⟩ := hr { toExec := pts [p] "loop" } hw'.1 hw'.2 (.inr rfl)
    exact ⟨r, r', hr1, hr'⟩
  refine ⟨s, h, γ, hev, d, b₀, b, b₀', b', ?_, fun p => ?_⟩
  · obtain ⟨r, r', hr, -⟩ := hrun 0
    exact (hd _ r 0 0 (fun hc => absurd hc hs) hr (by simp [queryAt, pts]) rfl).1
  · obtain ⟨r, r', hr, hr'⟩ := hrun p
    refine ⟨r, r', hr, hr', (hd _ r 0 p (fun hc => absurd hc hs) hr (by simp [queryAt, pts]) rfl).2.2.2, fun hp => ?_⟩
    refine (hw _ r' 0 p (fun hc => absurd hc hs) hr' (by simp [queryAt, pts]) rfl fun i => ?_).2
    simpa [ukDistance, uany, effScaling, effAngle, anisoDist2, rad] using right_far (p := p) (q := (x4 i, y4 i)) (by linarith [x4_le i])

/-- C62, C63 (3D universal kriging, regional linear drift): one function for all queries, the trend at all points with `x ≥ 4`. -/
example (v : Fin 4 → ℝ) : ∃ s, UK3D.create stdEnv x4 y4 z4 v (uany3 "spherical" [3, 2, 1]) = .ok s ∧ ∃ γ, s.variogramFunction s.params = .ok γ ∧
    ∃ d : Fin 4 → ℝ, ∃ b₀ b b₀' b', ∑ i, d i = 0 ∧ ∀ p : ℝ × ℝ × ℝ, ∃ r r', s.execute { toExec := pts3 [p] "vectorized" } = .ok r ∧
      s.execute { toExec := pts3 [p] "loop" } = .ok r' ∧
      r.z[0]? = some (some (b₀ + combine b (driftTerms3 (uany3 "spherical" [3, 2, 1]) s.adjustPoint [] p) +
        ∑ i, d i * (semivarTo true γ fun i => uk3Distance (uany3 "spherical" [3, 2, 1]) p (x4 i, y4 i, z4 i)) i)) ∧
      (4 ≤ p.1 → r'.z[0]? = some (some (b₀' + combine b' (driftTerms3 (uany3 "spherical" [3, 2, 1]) s.adjustPoint [] p)))) := by
  obtain ⟨s, h, hp, -, hr⟩ := uany3_ok (n := 4) (by norm_num) v sph_valid sph_grows inj4' space4
  obtain ⟨hb, -, -, γ, hγ, hval, -⟩ := sph_valid.builtin
  obtain ⟨hev, -⟩ := chosen_evaluates hγ hb (UK3D.create_function h (m := "spherical") rfl)
  rw [← hp] at hev
  obtain ⟨d, b₀, b, hd⟩ := C62_dual_uk3d h rfl hev (exact := true) rfl
  obtain ⟨b₀', b', hw⟩ := C63_beyond_uk3d h rfl hev (exact := true) rfl (sph_eq hγ) (by norm_num)
  have hs : "specified" ∉ (uany3 "spherical" [3, 2, 1]).driftTerms := by simp [uany3]
  have hrun : ∀ p : ℝ × ℝ × ℝ, ∃ r r', s.execute { toExec := pts3 [p] "vectorized" } = .ok r ∧ s.execute { toExec := pts3 [p] "loop" } = .ok r' := by
    intro p
    have hw := pts_wellPosed3 [p] "vectorized"
    have hw' := pts_wellPosed3 [p] "loop"
    obtain ⟨r, hr1⟩ := hr { toExec := pts3 [p] "vectorized" } hw.1 hw.2 (.inl rfl)
    obtain ⟨r', hr'⟩ := hr { toExec := pts3 [p] "loop" } hw'.1 hw'.2 (.inr rfl)
    exact ⟨r, r', hr1, hr'⟩
  refine ⟨s, h, γ, hev, d, b₀, b, b₀', b', ?_, fun p => ?_⟩
  · obtain ⟨r, r', hr, -⟩ := hrun 0
    exact (hd _ r 0 0 (fun hc => absurd hc hs) hr (by simp [queryAt3, pts3]) rfl).1
  · obtain ⟨r, r', hr, hr'⟩ := hrun p
    refine ⟨r, r', hr, hr', (hd _ r 0 p (fun hc => absurd hc hs) hr (by simp [queryAt3, pts3]) rfl).2.2.2, fun hp => ?_⟩
    refine (hw _ r' 0 p (fun hc => absurd hc hs) hr' (by simp [queryAt3, pts3]) rfl fun i => ?_).2
    simp [uk3Distance, distance3, rotX, rotY, rotZ, uany3, effAniso, rad]
    refine Real.le_sqrt_of_sq_le ?_
    nlinarith [x4_le i, sq_nonneg (p.2.1 - y4 i), sq_nonneg (p.2.2 - z4 i)]

end
end PyKrige.Demo
