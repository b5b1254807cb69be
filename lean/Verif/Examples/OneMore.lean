import Verif.Examples.Mono
import Verif.Props.C61

/-!
C61 at work: three data and a fourth one (3D universal kriging: four and a fifth).
-/

set_option linter.unusedSectionVars false

namespace PyKrige.Demo
noncomputable section
open Spec

theorem last_succAbove : (Fin.last 3).succAbove = (Fin.castSucc : Fin 3 → Fin 4) := by
  funext i; exact Fin.succAbove_last_apply i

theorem x43' : (fun i => x4 ((Fin.last 3).succAbove i)) = x3 := by funext i; rw [last_succAbove, x43]
theorem y43' : (fun i => y4 ((Fin.last 3).succAbove i)) = y3 := by funext i; rw [last_succAbove, y43]

theorem away4 (i : Fin 3) (d : ℝ × ℝ → ℝ × ℝ → ℝ) (hd : ∀ p q : ℝ × ℝ, d p q = Real.sqrt ((p.1 - q.1) ^ 2 + (p.2 - q.2) ^ 2)) :
    1 / 10 ^ 10 < d (x4 (Fin.last 3), y4 (Fin.last 3)) (x4 ((Fin.last 3).succAbove i), y4 ((Fin.last 3).succAbove i)) := by
  rw [hd, last_succAbove]
  refine lt_of_lt_of_le (b := 1) (by norm_num) (Real.one_le_sqrt.2 ?_)
  have h3 : Fin.last 3 = 3 := rfl
  fin_cases i <;> rw [h3] <;> simp [x4, y4]

/-- C61 (2D): any values. -/
example (z : Fin 4 → ℝ) (q : ℝ × ℝ) : ∃ s s' r r' est est' est₀ c,
    OK.create stdEnv x3 y3 (fun i => z (Fin.castSucc i)) (any "spherical" [3, 2, 1]) = .ok s ∧
    OK.create stdEnv x4 y4 z (any "spherical" [3, 2, 1]) = .ok s' ∧
    s.execute stdEnv (pts [q, (2, 1)] "vectorized") = .ok r ∧ s'.execute stdEnv (pts [q] "loop") = .ok r' ∧
    r.z[0]? = some (some est) ∧ r.z[1]? = some (some est₀) ∧ r'.z[0]? = some (some est') ∧
    est' = est + c * (z 3 - est₀) := by
  obtain ⟨s, h, hp, ha, hr⟩ := any_ok (n := 3) (by norm_num) (fun i => z ((Fin.last 3).succAbove i)) sph_valid sph_grows inj3
  obtain ⟨s', h', hp', ha', hr'⟩ := any_ok (n := 4) (by norm_num) z sph_valid sph_grows inj4
  obtain ⟨hb, -, -, γ, hγ, hval, -⟩ := sph_valid.builtin
  obtain ⟨hev, -⟩ := chosen_evaluates hγ hb (OK.create_function h (m := "spherical") rfl)
  obtain ⟨hev', -⟩ := chosen_evaluates hγ hb (OK.create_function h' (m := "spherical") rfl)
  have hw := pts_wellPosed [q, (2, 1)] "vectorized"
  have hw' := pts_wellPosed [q] "loop"
  obtain ⟨r, hr⟩ := hr _ hw.1 (by intro k hk; cases hk) (by intro k hk; cases hk) hw.2 (.inr (.inl ⟨rfl, rfl⟩))
  obtain ⟨r', hr'⟩ := hr' _ hw'.1 (by intro k hk; cases hk) (by intro k hk; cases hk) hw'.2 (.inl rfl)
  obtain ⟨est, var, est₀, var₀, est', var', c, h1, -, h2, -, h3, -, h4, -, -⟩ := C61_one_more_2d (o := Fin.last 3) (by rw [x43', y43']; exact h) h' rfl
    (hp ▸ hev) (hp' ▸ hev') (exact := true) rfl
    (fun _ i => away4 i _ fun p q => by simp [okDistance, distance2, any, effScaling, effAngle, anisoDist2, rad])
    (ha _ (by intro k hk; cases hk)) (ha _ (by intro k hk; cases hk)) (ha' _ (by intro k hk; cases hk)) rfl rfl rfl hr hr hr'
    (j := 0) (j₀ := 1) (j' := 0) (q := q) (by simp [queryAt, pts]) (by simp [queryAt, pts]; exact ⟨rfl, rfl⟩) (by simp [queryAt, pts]) rfl rfl rfl
  rw [last_succAbove] at h
  exact ⟨s, s', r, r', est, est', est₀, c, h, h', hr, hr', h1, h2, h3, h4⟩

/-- C61 (universal kriging, regional linear drift). -/
example (z : Fin 4 → ℝ) (q : ℝ × ℝ) : ∃ s s' r r' est est' est₀ c,
    UK.create stdEnv x3 y3 (fun i => z (Fin.castSucc i)) (uany "spherical" [3, 2, 1]) = .ok s ∧
    UK.create stdEnv x4 y4 z (uany "spherical" [3, 2, 1]) = .ok s' ∧
    s.execute { toExec := pts [q, (2, 1)] "vectorized" } = .ok r ∧ s'.execute { toExec := pts [q] "loop" } = .ok r' ∧
    r.z[0]? = some (some est) ∧ r.z[1]? = some (some est₀) ∧ r'.z[0]? = some (some est') ∧
    est' = est + c * (z 3 - est₀) := by
  obtain ⟨s, h, hp, -, hr⟩ := uany_ok (n := 3) (by norm_num) (fun i => z ((Fin.last 3).succAbove i)) sph_valid sph_grows inj3 plane3
  obtain ⟨s', h', hp', -, hr'⟩ := uany_ok (n := 4) (by norm_num) z sph_valid sph_grows inj4 plane4
  obtain ⟨hb, -, -, γ, hγ, hval, -⟩ := sph_valid.builtin
  obtain ⟨hev, -⟩ := chosen_evaluates hγ hb (UK.create_function h (m := "spherical") rfl)
  obtain ⟨hev', -⟩ := chosen_evaluates hγ hb (UK.create_function h' (m := "spherical") rfl)
  rw [← hp] at hev
  rw [← hp'] at hev'
  have hw := pts_wellPosed [q, (2, 1)] "vectorized"
  have hw' := pts_wellPosed [q] "loop"
  obtain ⟨r, hr⟩ := hr { toExec := pts [q, (2, 1)] "vectorized" } hw.1 hw.2 (.inl rfl)
  obtain ⟨r', hr'⟩ := hr' { toExec := pts [q] "loop" } hw'.1 hw'.2 (.inr rfl)
  have hs : "specified" ∉ (uany "spherical" [3, 2, 1]).driftTerms := by simp [uany]
  have hf : "functional" ∉ (uany "spherical" [3, 2, 1]).driftTerms := by simp [uany]
  have hq : queryAt (pts [q, (2, 1)] "vectorized") 0 = some q := by simp [queryAt, pts]
  have hq₀ : queryAt (pts [q, (2, 1)] "vectorized") 1 = some (x4 (Fin.last 3), y4 (Fin.last 3)) := by
    simp [queryAt, pts]; exact ⟨rfl, rfl⟩
  have hq' : queryAt (pts [q] "loop") 0 = some q := by simp [queryAt, pts]
  obtain ⟨est, var, est₀, var₀, est', var', c, h1, -, h2, -, h3, -, h4, -⟩ := C61_one_more_uk (o := Fin.last 3)
    (args := uany "spherical" [3, 2, 1]) (sd' := .list []) (by rw [x43', y43']; exact h) h' rfl
    (fun hc => absurd hc hs) (fun hc => absurd hc hf) hev hev' (exact := true) rfl
    (fun _ i => away4 i _ fun p q => by simp [ukDistance, uany, effScaling, effAngle, anisoDist2, rad])
    (fun hc => absurd hc hs) (fun hc => absurd hc hs) (fun hc => absurd hc hs) hr hr hr' hq hq₀ hq'
    (fun hc => absurd hc hs) (fun hc => absurd hc hs) rfl rfl rfl
  rw [last_succAbove] at h
  exact ⟨s, s', r, r', est, est', est₀, c, h, h', hr, hr', h1, h2, h3, h4⟩

/-- C61 (3D). -/
example (v : Fin 4 → ℝ) (q : ℝ × ℝ × ℝ) : ∃ s s' r r' est est' est₀ c,
    OK3D.create stdEnv x3 y3 (fun _ => 0) (fun i => v (Fin.castSucc i)) (any3 "spherical" [3, 2, 1]) = .ok s ∧
    OK3D.create stdEnv x4 y4 (fun _ => 0) v (any3 "spherical" [3, 2, 1]) = .ok s' ∧
    s.execute stdEnv (pts3 [q, (2, 1, 0)] "vectorized") = .ok r ∧ s'.execute stdEnv (pts3 [q] "loop") = .ok r' ∧
    r.z[0]? = some (some est) ∧ r.z[1]? = some (some est₀) ∧ r'.z[0]? = some (some est') ∧
    est' = est + c * (v 3 - est₀) := by
  obtain ⟨s, h, hp, hr⟩ := any3_ok (n := 3) (x := x3) (y := y3) (z := fun _ => 0) (by norm_num)
    (fun i => v ((Fin.last 3).succAbove i)) sph_valid sph_grows
    (fun i j h => inj3 (Prod.ext (congrArg (fun p : ℝ × ℝ × ℝ => p.1) h) (congrArg (fun p : ℝ × ℝ × ℝ => p.2.1) h)))
  obtain ⟨s', h', hp', hr'⟩ := any3_ok (n := 4) (x := x4) (y := y4) (z := fun _ => 0) (by norm_num) v sph_valid sph_grows
    (fun i j h => inj4 (Prod.ext (congrArg (fun p : ℝ × ℝ × ℝ => p.1) h) (congrArg (fun p : ℝ × ℝ × ℝ => p.2.1) h)))
  obtain ⟨hb, -, -, γ, hγ, hval, -⟩ := sph_valid.builtin
  obtain ⟨hev, -⟩ := chosen_evaluates hγ hb (OK3D.create_function h (m := "spherical") rfl)
  obtain ⟨hev', -⟩ := chosen_evaluates hγ hb (OK3D.create_function h' (m := "spherical") rfl)
  have hw := pts_wellPosed3 [q, (2, 1, 0)] "vectorized"
  have hw' := pts_wellPosed3 [q] "loop"
  obtain ⟨r, hr⟩ := hr _ hw.1 (by intro k hk; cases hk) (by intro k hk; cases hk) hw.2 (.inr ⟨rfl, rfl⟩)
  obtain ⟨r', hr'⟩ := hr' _ hw'.1 (by intro k hk; cases hk) (by intro k hk; cases hk) hw'.2 (.inl rfl)
  obtain ⟨est, var, est₀, var₀, est', var', c, h1, -, h2, -, h3, -, h4, -, -⟩ := C61_one_more_3d (o := Fin.last 3)
    (z := fun _ => 0) (by rw [x43', y43']; exact h) h' rfl
    (hp ▸ hev) (hp' ▸ hev') (exact := true) rfl
    (fun _ i => away4 i (fun p q => ok3Distance (any3 "spherical" [3, 2, 1]) (p.1, p.2, 0) (q.1, q.2, 0)) fun p q => by
      simp [ok3Distance, distance3, rotX, rotY, rotZ, any3, effAniso, rad])
    stdEnv_knn rfl rfl rfl hr hr hr'
    (j := 0) (j₀ := 1) (j' := 0) (q := q) (by simp [queryAt3, pts3]) (by simp [queryAt3, pts3]; exact ⟨rfl, rfl⟩) (by simp [queryAt3, pts3]) rfl rfl rfl
  rw [last_succAbove] at h
  exact ⟨s, s', r, r', est, est', est₀, c, h, h', hr, hr', h1, h2, h3, h4⟩

def x5 : Fin 5 → ℝ := ![0, 1, 0, 2, 1]
def y5 : Fin 5 → ℝ := ![0, 0, 1, 1, 1]
def z5 : Fin 5 → ℝ := ![0, 0, 0, 1, 3]

theorem inj5 : Function.Injective fun i => (x5 i, y5 i, z5 i) := by
  intro i j h
  fin_cases i <;> fin_cases j <;> first | rfl | (exfalso; simp [x5, y5, z5] at h)

theorem space5 : Space x5 y5 z5 := by
  intro a b c d h
  have h0 := h 0
  have h1 := h 1
  have h2 := h 2
  have h3 := h 3
  simp [x5, y5, z5] at h0 h1 h2 h3
  exact ⟨by linarith, by linarith, by linarith, h0⟩

theorem last_succAbove5 : (Fin.last 4).succAbove = (Fin.castSucc : Fin 4 → Fin 5) := by
  funext i; exact Fin.succAbove_last_apply i

theorem x54 : (fun i => x5 ((Fin.last 4).succAbove i)) = x4 := by rw [last_succAbove5]; funext i; fin_cases i <;> rfl
theorem y54 : (fun i => y5 ((Fin.last 4).succAbove i)) = y4 := by rw [last_succAbove5]; funext i; fin_cases i <;> rfl
theorem z54 : (fun i => z5 ((Fin.last 4).succAbove i)) = z4 := by rw [last_succAbove5]; funext i; fin_cases i <;> rfl

/-- C61 (3D universal kriging, regional linear drift). -/
example (v : Fin 5 → ℝ) (q : ℝ × ℝ × ℝ) : ∃ s s' r r' est est' est₀ c,
    UK3D.create stdEnv x4 y4 z4 (fun i => v (Fin.castSucc i)) (uany3 "spherical" [3, 2, 1]) = .ok s ∧
    UK3D.create stdEnv x5 y5 z5 v (uany3 "spherical" [3, 2, 1]) = .ok s' ∧
    s.execute { toExec := pts3 [q, (1, 1, 3)] "vectorized" } = .ok r ∧ s'.execute { toExec := pts3 [q] "loop" } = .ok r' ∧
    r.z[0]? = some (some est) ∧ r.z[1]? = some (some est₀) ∧ r'.z[0]? = some (some est') ∧
    est' = est + c * (v 4 - est₀) := by
  obtain ⟨s, h, hp, -, hr⟩ := uany3_ok (n := 4) (by norm_num) (fun i => v ((Fin.last 4).succAbove i)) sph_valid sph_grows inj4' space4
  obtain ⟨s', h', hp', -, hr'⟩ := uany3_ok (n := 5) (by norm_num) v sph_valid sph_grows inj5 space5
  obtain ⟨hb, -, -, γ, hγ, hval, -⟩ := sph_valid.builtin
  obtain ⟨hev, -⟩ := chosen_evaluates hγ hb (UK3D.create_function h (m := "spherical") rfl)
  obtain ⟨hev', -⟩ := chosen_evaluates hγ hb (UK3D.create_function h' (m := "spherical") rfl)
  rw [← hp] at hev
  rw [← hp'] at hev'
  have hw := pts_wellPosed3 [q, (1, 1, 3)] "vectorized"
  have hw' := pts_wellPosed3 [q] "loop"
  obtain ⟨r, hr⟩ := hr { toExec := pts3 [q, (1, 1, 3)] "vectorized" } hw.1 hw.2 (.inl rfl)
  obtain ⟨r', hr'⟩ := hr' { toExec := pts3 [q] "loop" } hw'.1 hw'.2 (.inr rfl)
  have hs : "specified" ∉ (uany3 "spherical" [3, 2, 1]).driftTerms := by simp [uany3]
  have hf : "functional" ∉ (uany3 "spherical" [3, 2, 1]).driftTerms := by simp [uany3]
  have hq : queryAt3 (pts3 [q, (1, 1, 3)] "vectorized") 0 = some q := by simp [queryAt3, pts3]
  have hq₀ : queryAt3 (pts3 [q, (1, 1, 3)] "vectorized") 1 = some (x5 (Fin.last 4), y5 (Fin.last 4), z5 (Fin.last 4)) := by
    simp [queryAt3, pts3]; exact ⟨rfl, rfl, rfl⟩
  have hq' : queryAt3 (pts3 [q] "loop") 0 = some q := by simp [queryAt3, pts3]
  obtain ⟨est, var, est₀, var₀, est', var', c, h1, -, h2, -, h3, -, h4, -⟩ := C61_one_more_uk3d (o := Fin.last 4)
    (args := uany3 "spherical" [3, 2, 1]) (sd' := .list []) (by rw [x54, y54, z54]; exact h) h' rfl
    (fun hc => absurd hc hs) (fun hc => absurd hc hf) hev hev' (exact := true) rfl
    (fun _ i => by
      have hd : ∀ p q : ℝ × ℝ × ℝ, uk3Distance (uany3 "spherical" [3, 2, 1]) p q =
          Real.sqrt ((p.1 - q.1) ^ 2 + (p.2.1 - q.2.1) ^ 2 + (p.2.2 - q.2.2) ^ 2) := fun p q => by
        simp [uk3Distance, distance3, rotX, rotY, rotZ, uany3, effAniso, rad]
      rw [hd, last_succAbove5]
      refine lt_of_lt_of_le (b := 1) (by norm_num) (Real.one_le_sqrt.2 ?_)
      have h4 : Fin.last 4 = 4 := rfl
      fin_cases i <;> rw [h4] <;> simp [x5, y5, z5] <;> norm_num)
    (fun hc => absurd hc hs) (fun hc => absurd hc hs) (fun hc => absurd hc hs) hr hr hr' hq hq₀ hq'
    (fun hc => absurd hc hs) (fun hc => absurd hc hs) rfl rfl rfl
  rw [last_succAbove5] at h
  exact ⟨s, s', r, r', est, est', est₀, c, h, h', hr, hr', h1, h2, h3, h4⟩

end
end PyKrige.Demo
