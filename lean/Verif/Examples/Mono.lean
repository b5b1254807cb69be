import Verif.Examples.More
import Verif.Props.C48

/-!
C48 at work: three data and the same three with a fourth one, spherical variogram with sill 3, range 2, nugget 1.
-/

set_option linter.unusedSectionVars false

namespace PyKrige.Demo
noncomputable section
open Spec

def x3 : Fin 3 → ℝ := ![0, 1, 0]
def y3 : Fin 3 → ℝ := ![0, 0, 1]

theorem inj3 : Function.Injective fun i => (x3 i, y3 i) := by
  intro i j h
  fin_cases i <;> fin_cases j <;> first | rfl | (exfalso; simp [x3, y3] at h)

theorem plane3 : Plane x3 y3 := by
  intro a b c h
  have h0 := h 0
  have h1 := h 1
  have h2 := h 2
  simp [x3, y3] at h0 h1 h2
  exact ⟨by linarith, by linarith, h0⟩

theorem x43 (i : Fin 3) : x4 (Fin.castSucc i) = x3 i := by fin_cases i <;> rfl
theorem y43 (i : Fin 3) : y4 (Fin.castSucc i) = y3 i := by fin_cases i <;> rfl

/-- C48 (2D): whatever the values, at every location; the fourth datum lowers the variance or keeps it. -/
example (z : Fin 3 → ℝ) (z' : Fin 4 → ℝ) (p : ℝ × ℝ) : ∃ s s' r r' var var',
    OK.create stdEnv x3 y3 z (any "spherical" [3, 2, 1]) = .ok s ∧
    OK.create stdEnv x4 y4 z' (any "spherical" [3, 2, 1]) = .ok s' ∧
    s.execute stdEnv (pts [p] "vectorized") = .ok r ∧ s'.execute stdEnv (pts [p] "vectorized") = .ok r' ∧
    r.ss[0]? = some (some var) ∧ r'.ss[0]? = some (some var') ∧ var' ≤ var := by
  obtain ⟨s, h, hp, ha, hr⟩ := any_ok (n := 3) (by norm_num) z sph_valid sph_grows inj3
  obtain ⟨s', h', hp', ha', hr'⟩ := any_ok (n := 4) (by norm_num) z' sph_valid sph_grows inj4
  obtain ⟨hb, -, -, γ, hγ, hval, -⟩ := sph_valid.builtin
  obtain ⟨hev, -⟩ := chosen_evaluates hγ hb (OK.create_function h (m := "spherical") rfl)
  obtain ⟨hev', -⟩ := chosen_evaluates hγ hb (OK.create_function h' (m := "spherical") rfl)
  obtain ⟨e, he⟩ := okDistance_embed (args := any "spherical" [3, 2, 1]) rfl
  have hw := pts_wellPosed [p] "vectorized"
  obtain ⟨r, hr⟩ := hr _ hw.1 (by intro k hk; cases hk) (by intro k hk; cases hk) hw.2 (.inr (.inl ⟨rfl, rfl⟩))
  obtain ⟨r', hr'⟩ := hr' _ hw.1 (by intro k hk; cases hk) (by intro k hk; cases hk) hw.2 (.inr (.inl ⟨rfl, rfl⟩))
  obtain ⟨var, var', h1, h2, h3⟩ := C48_more_data_2d h h' (Fin.castSucc_injective 3) x43 y43 (hp ▸ hev) (hp' ▸ hev') rfl
    (hval.data he fun i => (x4 i, y4 i)) (ha _ (by intro k hk; cases hk)) (ha' _ (by intro k hk; cases hk)) rfl hr hr'
    (j := 0) (j' := 0) (p := p) (by simp [queryAt, pts]) (by simp [queryAt, pts]) rfl rfl (.inl rfl)
  exact ⟨s, s', r, r', var, var', h, h', hr, hr', h1, h2, h3⟩

/-- C48 (2D): moving windows of two and three data at (1/4, 1/8). -/
example (z : Fin 4 → ℝ) : ∃ s r r' var var',
    OK.create stdEnv x4 y4 z (any "spherical" [3, 2, 1]) = .ok s ∧
    s.execute stdEnv { pts [(1 / 4, 1 / 8)] "loop" with nClosest := some 2 } = .ok r ∧
    s.execute stdEnv { pts [(1 / 4, 1 / 8)] "loop" with nClosest := some 3 } = .ok r' ∧
    r.ss[0]? = some (some var) ∧ r'.ss[0]? = some (some var') ∧ var' ≤ var := by
  obtain ⟨s, h, hp, ha, hr⟩ := any_ok (n := 4) (by norm_num) z sph_valid sph_grows inj4
  obtain ⟨hb, -, -, γ, hγ, hval, -⟩ := sph_valid.builtin
  obtain ⟨hev, -⟩ := chosen_evaluates hγ hb (OK.create_function h (m := "spherical") rfl)
  obtain ⟨e, he⟩ := okDistance_embed (args := any "spherical" [3, 2, 1]) rfl
  have hw := pts_wellPosed [(1 / 4, 1 / 8)] "loop"
  obtain ⟨r, hr1⟩ := hr { pts [(1 / 4, 1 / 8)] "loop" with nClosest := some 2 } hw.1
    (by intro k hk; cases hk; norm_num) (by intro k hk; cases hk; norm_num) hw.2 (.inl rfl)
  obtain ⟨r', hr2⟩ := hr { pts [(1 / 4, 1 / 8)] "loop" with nClosest := some 3 } hw.1
    (by intro k hk; cases hk; norm_num) (by intro k hk; cases hk; norm_num) hw.2 (.inl rfl)
  obtain ⟨var, var', h1, h2, h3⟩ := C48_window_2d h (hp ▸ hev) rfl
    (hval.data he fun i => (x4 i, y4 i)) (ha _ (by intro k hk; cases hk; norm_num)) (ha _ (by intro k hk; cases hk; norm_num))
    (k := 2) (k' := 3) rfl rfl (by norm_num) hr1 hr2
    (j := 0) (j' := 0) (p := (1 / 4, 1 / 8)) (by simp [queryAt, pts]) (by simp [queryAt, pts]) rfl rfl (by
      intro i j hij
      have : ∀ q : ℝ × ℝ, okDistance (any "spherical" [3, 2, 1]) (1 / 4, 1 / 8) q = Real.sqrt ((1 / 4 - q.1) ^ 2 + (1 / 8 - q.2) ^ 2) := by
        intro q
        simp [okDistance, distance2, any, effScaling, effAngle, anisoDist2, rad]
      rw [this, this, Real.sqrt_inj (by positivity) (by positivity)] at hij
      fin_cases i <;> fin_cases j <;> first | rfl | (exfalso; simp [x4, y4] at hij; norm_num at hij))
  exact ⟨s, r, r', var, var', h, hr1, hr2, h1, h2, h3⟩

/-- C48 (universal kriging with regional linear drift): three data and four data. -/
example (z : Fin 3 → ℝ) (z' : Fin 4 → ℝ) (p : ℝ × ℝ) : ∃ s s' r r' var var',
    UK.create stdEnv x3 y3 z (uany "spherical" [3, 2, 1]) = .ok s ∧
    UK.create stdEnv x4 y4 z' (uany "spherical" [3, 2, 1]) = .ok s' ∧
    s.execute { toExec := pts [p] "vectorized" } = .ok r ∧ s'.execute { toExec := pts [p] "vectorized" } = .ok r' ∧
    r.ss[0]? = some (some var) ∧ r'.ss[0]? = some (some var') ∧ var' ≤ var := by
  obtain ⟨s, h, hp, -, hr⟩ := uany_ok (n := 3) (by norm_num) z sph_valid sph_grows inj3 plane3
  obtain ⟨s', h', hp', -, hr'⟩ := uany_ok (n := 4) (by norm_num) z' sph_valid sph_grows inj4 plane4
  obtain ⟨hb, -, -, γ, hγ, hval, -⟩ := sph_valid.builtin
  obtain ⟨hev, -⟩ := chosen_evaluates hγ hb (UK.create_function h (m := "spherical") rfl)
  obtain ⟨hev', -⟩ := chosen_evaluates hγ hb (UK.create_function h' (m := "spherical") rfl)
  obtain ⟨e, he⟩ := anisoDist2_embed 1 0
  have hw := pts_wellPosed [p] "vectorized"
  obtain ⟨r, hr⟩ := hr { toExec := pts [p] "vectorized" } hw.1 hw.2 (.inl rfl)
  obtain ⟨r', hr'⟩ := hr' { toExec := pts [p] "vectorized" } hw.1 hw.2 (.inl rfl)
  have hq : queryAt (pts [p] "vectorized") 0 = some p := by simp [queryAt, pts]
  have hG : CondNeg (semivar γ fun i i' => ukDistance (uany "spherical" [3, 2, 1]) (x4 i, y4 i) (x4 i', y4 i')) :=
    hval.data he fun i => (x4 i, y4 i)
  have hs : "specified" ∉ (uany "spherical" [3, 2, 1]).driftTerms := by simp [uany]
  have hf : "functional" ∉ (uany "spherical" [3, 2, 1]).driftTerms := by simp [uany]
  rw [← hp] at hev
  rw [← hp'] at hev'
  obtain ⟨var, var', h1, h2, h3⟩ := C48_more_data_uk (args := uany "spherical" [3, 2, 1]) (sd' := .list []) h h'
    (Fin.castSucc_injective 3) x43 y43 (fun hc => absurd hc hs) (fun hc => absurd hc hf) hev hev' (exact := true) rfl rfl hG
    (fun hc => absurd hc hs) (fun hc => absurd hc hs) hr hr' hq hq (fun hc => absurd hc hs) rfl rfl
  exact ⟨s, s', r, r', var, var', h, h', hr, hr', h1, h2, h3⟩

/-- C48: ordinary and universal kriging of the four. -/
example (z : Fin 4 → ℝ) (p : ℝ × ℝ) : ∃ s so r ro var varo,
    UK.create stdEnv x4 y4 z (uany "spherical" [3, 2, 1]) = .ok s ∧
    OK.create stdEnv x4 y4 z (sameArgs (uany "spherical" [3, 2, 1])) = .ok so ∧
    s.execute { toExec := pts [p] "vectorized" } = .ok r ∧
    so.execute stdEnv (pts [p] "vectorized") = .ok ro ∧
    r.ss[0]? = some (some var) ∧ ro.ss[0]? = some (some varo) ∧ varo ≤ var := by
  obtain ⟨s, h, hp, -, hr⟩ := uany_ok (n := 4) (by norm_num) z sph_valid sph_grows inj4 plane4
  have hsep : Separates (listMeaning "spherical" [3, 2, 1]) fun i j =>
      okDistance (sameArgs (uany "spherical" [3, 2, 1])) (x4 i, y4 i) (x4 j, y4 j) := .inl ⟨sph_grows, fun i j hij h0 => by
    refine hij (inj4 (anisoDist2_eq_zero (sc := 1) one_ne_zero 0 ?_))
    simpa [okDistance, distance2, uany, sameArgs, effScaling, effAngle] using h0⟩
  obtain ⟨so, ho, hpo⟩ := C29_create_2d stdEnv (by norm_num) x4 y4 z (sameArgs (uany "spherical" [3, 2, 1]))
    (by simp [sameArgs, uany]) rfl rfl rfl rfl sph_valid hsep
  obtain ⟨hb, -, -, γ, hγ, hval, -⟩ := sph_valid.builtin
  obtain ⟨hev, -⟩ := chosen_evaluates hγ hb (UK.create_function h (m := "spherical") rfl)
  obtain ⟨hevo, hname⟩ := chosen_evaluates hγ hb (OK.create_function ho (m := "spherical") rfl)
  obtain ⟨e, he⟩ := anisoDist2_embed 1 0
  have hw := pts_wellPosed [p] "vectorized"
  obtain ⟨r, hr⟩ := hr { toExec := pts [p] "vectorized" } hw.1 hw.2 (.inl rfl)
  have ha : Admissible stdEnv (sameArgs (uany "spherical" [3, 2, 1])) so (pts [p] "vectorized").nClosest :=
    ⟨stdEnv_knn, trivial, by rw [hpo, hname]; exact sph_valid.rangeOk, by intro k hk; cases hk⟩
  obtain ⟨ro, hro⟩ := C29_execute_2d ho rfl rfl (hpo ▸ sph_valid) (hpo ▸ hsep) ha hw.1 (by intro k hk; cases hk) hw.2
    (.inr (.inl ⟨rfl, rfl⟩))
  have hq : queryAt (pts [p] "vectorized") 0 = some p := by simp [queryAt, pts]
  have hG : CondNeg (semivar γ fun i i' => ukDistance (uany "spherical" [3, 2, 1]) (x4 i, y4 i) (x4 i', y4 i')) :=
    hval.data he fun i => (x4 i, y4 i)
  have hs : "specified" ∉ (uany "spherical" [3, 2, 1]).driftTerms := by simp [uany]
  rw [← hp] at hev
  rw [← hpo] at hevo
  obtain ⟨varo, var, h4, h5, h6⟩ := C48_ordinary_2d (args := uany "spherical" [3, 2, 1]) ho h hevo hev
    (exact := true) rfl rfl hG ha rfl (fun hc => absurd hc hs) hro hr hq hq rfl rfl
  exact ⟨s, so, r, ro, var, varo, h, ho, hr, hro, h5, h4, h6⟩

/-- C48 (3D): the same three data and a fourth one. -/
example (v : Fin 3 → ℝ) (v' : Fin 4 → ℝ) (p : ℝ × ℝ × ℝ) : ∃ s s' r r' var var',
    OK3D.create stdEnv x3 y3 (fun _ => 0) v (any3 "spherical" [3, 2, 1]) = .ok s ∧
    OK3D.create stdEnv x4 y4 z4 v' (any3 "spherical" [3, 2, 1]) = .ok s' ∧
    s.execute stdEnv (pts3 [p] "vectorized") = .ok r ∧ s'.execute stdEnv (pts3 [p] "loop") = .ok r' ∧
    r.ss[0]? = some (some var) ∧ r'.ss[0]? = some (some var') ∧ var' ≤ var := by
  obtain ⟨s, h, hp, hr⟩ := any3_ok (n := 3) (x := x3) (y := y3) (z := fun _ => 0) (by norm_num) v sph_valid sph_grows
    (fun i j h => inj3 (Prod.ext (congrArg (fun p : ℝ × ℝ × ℝ => p.1) h) (congrArg (fun p : ℝ × ℝ × ℝ => p.2.1) h)))
  obtain ⟨s', h', hp', hr'⟩ := any3_ok (n := 4) (by norm_num) v' sph_valid sph_grows inj4'
  obtain ⟨hb, -, -, γ, hγ, hval, -⟩ := sph_valid.builtin
  obtain ⟨hev, -⟩ := chosen_evaluates hγ hb (OK3D.create_function h (m := "spherical") rfl)
  obtain ⟨hev', -⟩ := chosen_evaluates hγ hb (OK3D.create_function h' (m := "spherical") rfl)
  obtain ⟨e, he⟩ := distance3_embed (effAniso (any3 "spherical" [3, 2, 1]).variogramModel (any3 "spherical" [3, 2, 1]).aniso)
  have hw := pts_wellPosed3 [p] "vectorized"
  have hw' := pts_wellPosed3 [p] "loop"
  obtain ⟨r, hr⟩ := hr _ hw.1 (by intro k hk; cases hk) (by intro k hk; cases hk) hw.2 (.inr ⟨rfl, rfl⟩)
  obtain ⟨r', hr'⟩ := hr' _ hw'.1 (by intro k hk; cases hk) (by intro k hk; cases hk) hw'.2 (.inl rfl)
  obtain ⟨var, var', h1, h2, h3⟩ := C48_more_data_3d h h' (Fin.castSucc_injective 3) x43 y43
    (fun i => by fin_cases i <;> rfl) (hp ▸ hev) (hp' ▸ hev') rfl
    (hval.data he fun i => (x4 i, y4 i, z4 i)) stdEnv_knn (by intro k hk; cases hk) rfl hr hr'
    (j := 0) (j' := 0) (p := p) (by simp [queryAt3, pts3]) (by simp [queryAt3, pts3]) rfl rfl (.inl rfl)
  exact ⟨s, s', r, r', var, var', h, h', hr, hr', h1, h2, h3⟩

/-- C48 (3D universal kriging): its variance is not below that of ordinary kriging. -/
example (v : Fin 4 → ℝ) (p : ℝ × ℝ × ℝ) : ∃ s so r ro var varo,
    UK3D.create stdEnv x4 y4 z4 v (uany3 "spherical" [3, 2, 1]) = .ok s ∧
    OK3D.create stdEnv x4 y4 z4 v (any3 "spherical" [3, 2, 1]) = .ok so ∧
    s.execute { toExec := pts3 [p] "loop" } = .ok r ∧ so.execute stdEnv (pts3 [p] "vectorized") = .ok ro ∧
    r.ss[0]? = some (some var) ∧ ro.ss[0]? = some (some varo) ∧ varo ≤ var := by
  obtain ⟨s, h, hp, -, hr⟩ := uany3_ok (n := 4) (by norm_num) v sph_valid sph_grows inj4' space4
  obtain ⟨so, ho, hpo, hro⟩ := any3_ok (n := 4) (by norm_num) v sph_valid sph_grows inj4'
  obtain ⟨hb, -, -, γ, hγ, hval, -⟩ := sph_valid.builtin
  obtain ⟨hev, -⟩ := chosen_evaluates hγ hb (UK3D.create_function h (m := "spherical") rfl)
  obtain ⟨hevo, -⟩ := chosen_evaluates hγ hb (OK3D.create_function ho (m := "spherical") rfl)
  obtain ⟨e, he⟩ := distance3_embed (effAniso (any3 "spherical" [3, 2, 1]).variogramModel (any3 "spherical" [3, 2, 1]).aniso)
  have hw := pts_wellPosed3 [p] "vectorized"
  have hw' := pts_wellPosed3 [p] "loop"
  obtain ⟨r, hr⟩ := hr { toExec := pts3 [p] "loop" } hw'.1 hw'.2 (.inr rfl)
  obtain ⟨ro, hro⟩ := hro _ hw.1 (by intro k hk; cases hk) (by intro k hk; cases hk) hw.2 (.inr ⟨rfl, rfl⟩)
  obtain ⟨varo, var, h1, h2, h3⟩ := C48_ordinary_3d (args := uany3 "spherical" [3, 2, 1]) ho h (hpo ▸ hevo) (hp ▸ hev)
    (exact := true) rfl rfl (hval.data he fun i => (x4 i, y4 i, z4 i)) stdEnv_knn rfl (fun hc => by simp [uany3] at hc) hro hr
    (j := 0) (j' := 0) (p := p) (by simp [queryAt3, pts3]) (by simp [queryAt3, pts3]) rfl rfl
  exact ⟨s, so, r, ro, var, varo, h, ho, hr, hro, h2, h1, h3⟩

end
end PyKrige.Demo
