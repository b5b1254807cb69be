import Verif.Examples.Dual
import Verif.Props.C64

/-!
C64 at work: four data whose coordinates, values, sill and query location are disturbed by errors that vanish.
-/

set_option linter.unusedSectionVars false

namespace PyKrige.Demo
noncomputable section
open Spec Filter Topology

/-- The errors. -/
def err (k : ℕ) : ℝ := 1 / ((k : ℝ) + 1)

theorem err_pos (k : ℕ) : 0 < err k := by unfold err; positivity

theorem err_zero : Tendsto err atTop (𝓝 0) := tendsto_one_div_add_atTop_nhds_zero_nat

theorem stretch (a : ℝ) : Tendsto (fun k => (1 + err k) * a) atTop (𝓝 a) := by
  have := ((err_zero.const_add 1).mul_const a)
  simpa using this

theorem sph_valid_err (k : ℕ) : ValidModel "spherical" (listMeaning "spherical" [3 + err k, 2, 1]) :=
  .inr (.inr ⟨2 + err k, 2, 1, by simp, by simp [listMeaning]; ring, by linarith [err_pos k], by norm_num, by norm_num⟩)

theorem sph_grows_err (k : ℕ) : Growing (listMeaning "spherical" [3 + err k, 2, 1]) :=
  ⟨2 + err k, [2, 1], by simp [listMeaning]; ring, by linarith [err_pos k]⟩

theorem inj4_err (k : ℕ) : Function.Injective fun i => ((1 + err k) * x4 i, (1 + err k) * y4 i) := by
  intro i j h
  have h0 : (1 + err k) ≠ 0 := by have := err_pos k; linarith
  obtain ⟨h1, h2⟩ := Prod.ext_iff.1 h
  exact inj4 (Prod.ext (mul_left_cancel₀ h0 h1) (mul_left_cancel₀ h0 h2))

theorem inj4_err' (k : ℕ) : Function.Injective fun i => ((1 + err k) * x4 i, (1 + err k) * y4 i, (1 + err k) * z4 i) := by
  intro i j h
  obtain ⟨h1, h2⟩ := Prod.ext_iff.1 h
  exact inj4_err k (Prod.ext h1 (Prod.ext_iff.1 h2).1)

theorem plane4_err (k : ℕ) : Plane (fun i => (1 + err k) * x4 i) fun i => (1 + err k) * y4 i := by
  intro a b c h
  have h0 : (1 + err k) ≠ 0 := by have := err_pos k; linarith
  obtain ⟨h1, h2, h3⟩ := plane4 (a * (1 + err k)) (b * (1 + err k)) c fun i => by have := h i; dsimp only at this; linarith
  exact ⟨(mul_eq_zero.1 h1).resolve_right h0, (mul_eq_zero.1 h2).resolve_right h0, h3⟩

theorem space4_err (k : ℕ) : Space (fun i => (1 + err k) * x4 i) (fun i => (1 + err k) * y4 i) fun i => (1 + err k) * z4 i := by
  intro a b c d h
  have h0 : (1 + err k) ≠ 0 := by have := err_pos k; linarith
  obtain ⟨h1, h2, h3, h4⟩ := space4 (a * (1 + err k)) (b * (1 + err k)) (c * (1 + err k)) d fun i => by
    have := h i; dsimp only at this; linarith
  exact ⟨(mul_eq_zero.1 h1).resolve_right h0, (mul_eq_zero.1 h2).resolve_right h0, (mul_eq_zero.1 h3).resolve_right h0, h4⟩

theorem sph_conv {γ : ℝ → ℝ} {γ' : ℕ → ℝ → ℝ} (h : Builtin "spherical" (listMeaning "spherical" [3, 2, 1]) γ)
    (h' : ∀ k, Builtin "spherical" (listMeaning "spherical" [3 + err k, 2, 1]) (γ' k)) : VariogramsConverge γ' γ := by
  have ha : Tendsto (fun k => 3 + err k - 1) atTop (𝓝 (3 - 1)) := by simpa using (err_zero.const_add 3).sub_const 1
  exact C64_builtin (b := 2) (c := 1) (b' := fun _ => 2) (c' := fun _ => 1) ha tendsto_const_nhds tendsto_const_nhds
    (.inr (.inr ⟨by norm_num, "spherical", by simp, h, h'⟩))

/-- C64 (OK), at all queries with `x ≥ 4`. -/
example (z : Fin 4 → ℝ) (p : ℝ × ℝ) (hx : 4 ≤ p.1) : ∃ s r, ∃ s' : ℕ → OK 4, ∃ r' : ℕ → ExecResult, OK.create stdEnv x4 y4 z (any "spherical" [3, 2, 1]) = .ok s ∧
    (∀ k, OK.create stdEnv (fun i => (1 + err k) * x4 i) (fun i => (1 + err k) * y4 i) (fun i => (1 + err k) * z i) (any "spherical" [3 + err k, 2, 1]) = .ok (s' k)) ∧
    s.execute stdEnv (pts [p] "vectorized") = .ok r ∧ (∀ k, (s' k).execute stdEnv (pts [(p.1 + err k, p.2)] "loop") = .ok (r' k)) ∧
    ∃ (est var : ℝ) (est' var' : ℕ → ℝ), r.z[0]? = some (some est) ∧ r.ss[0]? = some (some var) ∧
      (∀ k, (r' k).z[0]? = some (some (est' k)) ∧ (r' k).ss[0]? = some (some (var' k))) ∧
      Tendsto est' atTop (𝓝 est) ∧ Tendsto var' atTop (𝓝 var) := by
  obtain ⟨s, h, hp, ha, hr⟩ := any_ok (n := 4) (by norm_num) z sph_valid sph_grows inj4
  choose s' h' hp' ha' hr' using fun k => any_ok (n := 4) (by norm_num) (fun i => (1 + err k) * z i) (sph_valid_err k) (sph_grows_err k) (inj4_err k)
  obtain ⟨hb, -, -, γ, hγ, -, -⟩ := sph_valid.builtin
  obtain ⟨hev, -⟩ := chosen_evaluates hγ hb (OK.create_function h (m := "spherical") rfl)
  rw [← hp] at hev
  choose hb' _h1 _h2 γ' hγ' _h3 _h4 using fun k => (sph_valid_err k).builtin
  have hev' : ∀ k, (s' k).variogramFunction (s' k).params = .ok (γ' k) := fun k => by
    obtain ⟨hev, -⟩ := chosen_evaluates (hγ' k) (hb' k) (OK.create_function (h' k) (m := "spherical") rfl)
    rw [hp']
    exact hev
  have hw := pts_wellPosed [p] "vectorized"
  have hw' := fun k => pts_wellPosed [(p.1 + err k, p.2)] "loop"
  obtain ⟨r, hrr⟩ := hr (pts [p] "vectorized") hw.1 (by intro k hk; cases hk) (by intro k hk; cases hk) hw.2 (.inr (.inl ⟨rfl, rfl⟩))
  choose r' hrr' using fun k => hr' k (pts [(p.1 + err k, p.2)] "loop") (hw' k).1 (by intro k hk; cases hk) (by intro k hk; cases hk) (hw' k).2 (.inl rfl)
  have hfar : ∀ i, 2 ≤ okDistance (any "spherical" [3, 2, 1]) p (x4 i, y4 i) := fun i => by
    simpa [okDistance, distance2, any, effScaling, effAngle, anisoDist2, rad] using right_far (p := p) (q := (x4 i, y4 i)) (by linarith [x4_le i])
  have hpl : Tendsto (fun k => (p.1 + err k, p.2)) atTop (𝓝 p) := by
    have := (err_zero.const_add p.1).prodMk_nhds (tendsto_const_nhds (x := p.2))
    simpa using this
  refine ⟨s, r, s', r', h, h', hrr, hrr', ?_⟩
  exact C64_stable_2d (args := (any "spherical" [3, 2, 1])) h rfl hev (fun _ => .name "spherical") (fun k => .list [3 + err k, 2, 1]) (fun _ => (any "spherical" [3, 2, 1]).variogramFunction)
    (fun _ => 1) (fun _ => 0) h' hev' (ha _ (by intro k hk; cases hk)) (fun k => ha' k _ (by intro k hk; cases hk)) rfl (fun _ => rfl) hrr hrr' (j := 0) (j' := fun _ => 0) (p := p) (p' := fun k => (p.1 + err k, p.2)) (by simp [queryAt, pts])
    (fun k => by simp [queryAt, pts]) rfl (fun _ => rfl) (fun i => stretch _) (fun i => stretch _) (fun i => stretch _) (sph_conv hγ hγ') (by exact tendsto_const_nhds) (by exact tendsto_const_nhds) hpl
    (fun _ i hi => by have := hfar i; rw [hi] at this; norm_num at this) 

/-- C64 (OK3D), at all queries with `x ≥ 4`. -/
example (v : Fin 4 → ℝ) (p : ℝ × ℝ × ℝ) (hx : 4 ≤ p.1) : ∃ s r, ∃ s' : ℕ → OK3D 4, ∃ r' : ℕ → ExecResult, OK3D.create stdEnv x4 y4 z4 v (any3 "spherical" [3, 2, 1]) = .ok s ∧
    (∀ k, OK3D.create stdEnv (fun i => (1 + err k) * x4 i) (fun i => (1 + err k) * y4 i) (fun i => (1 + err k) * z4 i) (fun i => (1 + err k) * v i) (any3 "spherical" [3 + err k, 2, 1]) = .ok (s' k)) ∧
    s.execute stdEnv (pts3 [p] "vectorized") = .ok r ∧ (∀ k, (s' k).execute stdEnv (pts3 [(p.1 + err k, p.2)] "loop") = .ok (r' k)) ∧
    ∃ (est var : ℝ) (est' var' : ℕ → ℝ), r.z[0]? = some (some est) ∧ r.ss[0]? = some (some var) ∧
      (∀ k, (r' k).z[0]? = some (some (est' k)) ∧ (r' k).ss[0]? = some (some (var' k))) ∧
      Tendsto est' atTop (𝓝 est) ∧ Tendsto var' atTop (𝓝 var) := by
  obtain ⟨s, h, hp, hr⟩ := any3_ok (n := 4) (by norm_num) v sph_valid sph_grows inj4'
  choose s' h' hp' hr' using fun k => any3_ok (n := 4) (by norm_num) (fun i => (1 + err k) * v i) (sph_valid_err k) (sph_grows_err k) (inj4_err' k)
  obtain ⟨hb, -, -, γ, hγ, -, -⟩ := sph_valid.builtin
  obtain ⟨hev, -⟩ := chosen_evaluates hγ hb (OK3D.create_function h (m := "spherical") rfl)
  rw [← hp] at hev
  choose hb' _h1 _h2 γ' hγ' _h3 _h4 using fun k => (sph_valid_err k).builtin
  have hev' : ∀ k, (s' k).variogramFunction (s' k).params = .ok (γ' k) := fun k => by
    obtain ⟨hev, -⟩ := chosen_evaluates (hγ' k) (hb' k) (OK3D.create_function (h' k) (m := "spherical") rfl)
    rw [hp']
    exact hev
  have hw := pts_wellPosed3 [p] "vectorized"
  have hw' := fun k => pts_wellPosed3 [(p.1 + err k, p.2)] "loop"
  obtain ⟨r, hrr⟩ := hr (pts3 [p] "vectorized") hw.1 (by intro k hk; cases hk) (by intro k hk; cases hk) hw.2 (.inr ⟨rfl, rfl⟩)
  choose r' hrr' using fun k => hr' k (pts3 [(p.1 + err k, p.2)] "loop") (hw' k).1 (by intro k hk; cases hk) (by intro k hk; cases hk) (hw' k).2 (.inl rfl)
  have hfar : ∀ i, 2 ≤ ok3Distance (any3 "spherical" [3, 2, 1]) p (x4 i, y4 i, z4 i) := fun i => by
    simp [ok3Distance, distance3, rotX, rotY, rotZ, any3, effAniso, rad]
    refine Real.le_sqrt_of_sq_le ?_
    nlinarith [x4_le i, sq_nonneg (p.2.1 - y4 i), sq_nonneg (p.2.2 - z4 i)]
  have hpl : Tendsto (fun k => (p.1 + err k, p.2)) atTop (𝓝 p) := by
    have := (err_zero.const_add p.1).prodMk_nhds (tendsto_const_nhds (x := p.2))
    simpa using this
  refine ⟨s, r, s', r', h, h', hrr, hrr', ?_⟩
  exact C64_stable_3d (args := (any3 "spherical" [3, 2, 1])) h rfl hev (fun _ => .name "spherical") (fun k => .list [3 + err k, 2, 1]) (fun _ => (any3 "spherical" [3, 2, 1]).variogramFunction)
    (fun _ => {}) h' hev' stdEnv_knn rfl (fun _ => rfl) hrr hrr' (j := 0) (j' := fun _ => 0) (p := p) (p' := fun k => (p.1 + err k, p.2)) (by simp [queryAt3, pts3])
    (fun k => by simp [queryAt3, pts3]) rfl (fun _ => rfl) (fun i => stretch _) (fun i => stretch _) (fun i => stretch _) (fun i => stretch _) (sph_conv hγ hγ') (by exact ⟨tendsto_const_nhds, tendsto_const_nhds, tendsto_const_nhds, tendsto_const_nhds, tendsto_const_nhds⟩) hpl
    (fun _ i hi => by have := hfar i; rw [hi] at this; norm_num at this) 

theorem smooth_regional (p : ℝ × ℝ) : SmoothDrift (uany "spherical" [3, 2, 1]) p :=
  ⟨by simp [uany], by simp [uany], by simp [uany], by simp [uany]⟩

theorem smooth_regional3 : SmoothDrift3 (uany3 "spherical" [3, 2, 1]) := ⟨by simp [uany3], by simp [uany3]⟩

/-- C64 (UK), at all queries with `x ≥ 4`. -/
example (z : Fin 4 → ℝ) (p : ℝ × ℝ) (hx : 4 ≤ p.1) : ∃ s r, ∃ s' : ℕ → UK 4, ∃ r' : ℕ → ExecResult, UK.create stdEnv x4 y4 z (uany "spherical" [3, 2, 1]) = .ok s ∧
    (∀ k, UK.create stdEnv (fun i => (1 + err k) * x4 i) (fun i => (1 + err k) * y4 i) (fun i => (1 + err k) * z i) (uany "spherical" [3 + err k, 2, 1]) = .ok (s' k)) ∧
    s.execute { toExec := pts [p] "vectorized" } = .ok r ∧ (∀ k, (s' k).execute { toExec := pts [(p.1 + err k, p.2)] "loop" } = .ok (r' k)) ∧
    ∃ (est var : ℝ) (est' var' : ℕ → ℝ), r.z[0]? = some (some est) ∧ r.ss[0]? = some (some var) ∧
      (∀ k, (r' k).z[0]? = some (some (est' k)) ∧ (r' k).ss[0]? = some (some (var' k))) ∧
      Tendsto est' atTop (𝓝 est) ∧ Tendsto var' atTop (𝓝 var) := by
  obtain ⟨s, h, hp, -, hr⟩ := uany_ok (n := 4) (by norm_num) z sph_valid sph_grows inj4 plane4
  choose s' h' hp' _hadj hr' using fun k => uany_ok (n := 4) (by norm_num) (fun i => (1 + err k) * z i) (sph_valid_err k) (sph_grows_err k) (inj4_err k) (plane4_err k)
  obtain ⟨hb, -, -, γ, hγ, -, -⟩ := sph_valid.builtin
  obtain ⟨hev, -⟩ := chosen_evaluates hγ hb (UK.create_function h (m := "spherical") rfl)
  rw [← hp] at hev
  choose hb' _h1 _h2 γ' hγ' _h3 _h4 using fun k => (sph_valid_err k).builtin
  have hev' : ∀ k, (s' k).variogramFunction (s' k).params = .ok (γ' k) := fun k => by
    obtain ⟨hev, -⟩ := chosen_evaluates (hγ' k) (hb' k) (UK.create_function (h' k) (m := "spherical") rfl)
    rw [hp']
    exact hev
  have hw := pts_wellPosed [p] "vectorized"
  have hw' := fun k => pts_wellPosed [(p.1 + err k, p.2)] "loop"
  obtain ⟨r, hrr⟩ := hr ({ toExec := pts [p] "vectorized" }) hw.1  hw.2 (.inl rfl)
  choose r' hrr' using fun k => hr' k ({ toExec := pts [(p.1 + err k, p.2)] "loop" }) (hw' k).1  (hw' k).2 (.inr rfl)
  have hfar : ∀ i, 2 ≤ ukDistance (uany "spherical" [3, 2, 1]) p (x4 i, y4 i) := fun i => by
    simpa [ukDistance, uany, effScaling, effAngle, anisoDist2, rad] using right_far (p := p) (q := (x4 i, y4 i)) (by linarith [x4_le i])
  have hpl : Tendsto (fun k => (p.1 + err k, p.2)) atTop (𝓝 p) := by
    have := (err_zero.const_add p.1).prodMk_nhds (tendsto_const_nhds (x := p.2))
    simpa using this
  refine ⟨s, r, s', r', h, h', hrr, hrr', ?_⟩
  exact C64_stable_uk (args := (uany "spherical" [3, 2, 1])) h rfl hev (fun _ => .name "spherical") (fun k => .list [3 + err k, 2, 1]) (fun _ => (uany "spherical" [3, 2, 1]).variogramFunction)
    (fun _ => 1) (fun _ => 0) h' hev'  hrr hrr' (j := 0) (j' := fun _ => 0) (p := p) (p' := fun k => (p.1 + err k, p.2)) (by simp [queryAt, pts])
    (fun k => by simp [queryAt, pts]) rfl (fun _ => rfl) (fun i => stretch _) (fun i => stretch _) (fun i => stretch _) (sph_conv hγ hγ') (by exact tendsto_const_nhds) (by exact tendsto_const_nhds) hpl
    (fun _ i hi => by have := hfar i; rw [hi] at this; norm_num at this) (by exact smooth_regional _) (fun i => by exact smooth_regional _)

/-- C64 (UK3D), at all queries with `x ≥ 4`. -/
example (v : Fin 4 → ℝ) (p : ℝ × ℝ × ℝ) (hx : 4 ≤ p.1) : ∃ s r, ∃ s' : ℕ → UK3D 4, ∃ r' : ℕ → ExecResult, UK3D.create stdEnv x4 y4 z4 v (uany3 "spherical" [3, 2, 1]) = .ok s ∧
    (∀ k, UK3D.create stdEnv (fun i => (1 + err k) * x4 i) (fun i => (1 + err k) * y4 i) (fun i => (1 + err k) * z4 i) (fun i => (1 + err k) * v i) (uany3 "spherical" [3 + err k, 2, 1]) = .ok (s' k)) ∧
    s.execute { toExec := pts3 [p] "vectorized" } = .ok r ∧ (∀ k, (s' k).execute { toExec := pts3 [(p.1 + err k, p.2)] "loop" } = .ok (r' k)) ∧
    ∃ (est var : ℝ) (est' var' : ℕ → ℝ), r.z[0]? = some (some est) ∧ r.ss[0]? = some (some var) ∧
      (∀ k, (r' k).z[0]? = some (some (est' k)) ∧ (r' k).ss[0]? = some (some (var' k))) ∧
      Tendsto est' atTop (𝓝 est) ∧ Tendsto var' atTop (𝓝 var) := by
  obtain ⟨s, h, hp, -, hr⟩ := uany3_ok (n := 4) (by norm_num) v sph_valid sph_grows inj4' space4
  choose s' h' hp' _hadj hr' using fun k => uany3_ok (n := 4) (by norm_num) (fun i => (1 + err k) * v i) (sph_valid_err k) (sph_grows_err k) (inj4_err' k) (space4_err k)
  obtain ⟨hb, -, -, γ, hγ, -, -⟩ := sph_valid.builtin
  obtain ⟨hev, -⟩ := chosen_evaluates hγ hb (UK3D.create_function h (m := "spherical") rfl)
  rw [← hp] at hev
  choose hb' _h1 _h2 γ' hγ' _h3 _h4 using fun k => (sph_valid_err k).builtin
  have hev' : ∀ k, (s' k).variogramFunction (s' k).params = .ok (γ' k) := fun k => by
    obtain ⟨hev, -⟩ := chosen_evaluates (hγ' k) (hb' k) (UK3D.create_function (h' k) (m := "spherical") rfl)
    rw [hp']
    exact hev
  have hw := pts_wellPosed3 [p] "vectorized"
  have hw' := fun k => pts_wellPosed3 [(p.1 + err k, p.2)] "loop"
  obtain ⟨r, hrr⟩ := hr ({ toExec := pts3 [p] "vectorized" }) hw.1  hw.2 (.inl rfl)
  choose r' hrr' using fun k => hr' k ({ toExec := pts3 [(p.1 + err k, p.2)] "loop" }) (hw' k).1  (hw' k).2 (.inr rfl)
  have hfar : ∀ i, 2 ≤ uk3Distance (uany3 "spherical" [3, 2, 1]) p (x4 i, y4 i, z4 i) := fun i => by
    simp [uk3Distance, distance3, rotX, rotY, rotZ, uany3, effAniso, rad]
    refine Real.le_sqrt_of_sq_le ?_
    nlinarith [x4_le i, sq_nonneg (p.2.1 - y4 i), sq_nonneg (p.2.2 - z4 i)]
  have hpl : Tendsto (fun k => (p.1 + err k, p.2)) atTop (𝓝 p) := by
    have := (err_zero.const_add p.1).prodMk_nhds (tendsto_const_nhds (x := p.2))
    simpa using this
  refine ⟨s, r, s', r', h, h', hrr, hrr', ?_⟩
  exact C64_stable_uk3d (args := (uany3 "spherical" [3, 2, 1])) h rfl hev (fun _ => .name "spherical") (fun k => .list [3 + err k, 2, 1]) (fun _ => (uany3 "spherical" [3, 2, 1]).variogramFunction)
    (fun _ => {}) h' hev'  hrr hrr' (j := 0) (j' := fun _ => 0) (p := p) (p' := fun k => (p.1 + err k, p.2)) (by simp [queryAt3, pts3])
    (fun k => by simp [queryAt3, pts3]) rfl (fun _ => rfl) (fun i => stretch _) (fun i => stretch _) (fun i => stretch _) (fun i => stretch _) (sph_conv hγ hγ') (by exact ⟨tendsto_const_nhds, tendsto_const_nhds, tendsto_const_nhds, tendsto_const_nhds, tendsto_const_nhds⟩) hpl
    (fun _ i hi => by have := hfar i; rw [hi] at this; norm_num at this) (by exact smooth_regional3)

end
end PyKrige.Demo
