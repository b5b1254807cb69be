import Verif.Examples.Dual
import Verif.Props.C65

/-!
C65 at work: four data, any values; the statistics against objects made from the first two and the first three data.
-/

set_option linter.unusedSectionVars false

namespace PyKrige.Demo
noncomputable section
open Spec

theorem before_inj {n : ℕ} (i : Fin n) : Function.Injective (before i) := fun a b h => by
  have := congrArg Fin.val h
  exact Fin.ext this

/-- Different grid points are at least 1 apart. -/
theorem grid_apart (i j : Fin 4) (h : i ≠ j) : 1 ≤ (x4 i - x4 j) ^ 2 + (y4 i - y4 j) ^ 2 := by
  fin_cases i <;> fin_cases j <;> first | exact absurd rfl h | norm_num [x4, y4]

theorem nan_result : Nonempty ExecResult := ⟨⟨[], [], []⟩⟩

theorem plain_uk_ok {n : ℕ} (hn : 2 ≤ n) {x y : Fin n → ℝ} (z : Fin n → ℝ) (hd : Function.Injective fun i => (x i, y i)) :
    ∃ s, UK.create stdEnv x y z { uany "spherical" [3, 2, 1] with driftTerms := [] } = .ok s ∧ s.params = listMeaning "spherical" [3, 2, 1] ∧
      ∀ ea : UKExecArgs, WellPosed ea.toExec → HasFloats ea.toExec → ea.toExec.backend = "loop" → ∃ r, s.execute ea = .ok r := by
  have hs : Separates (listMeaning "spherical" [3, 2, 1]) fun i j =>
      ukDistance { uany "spherical" [3, 2, 1] with driftTerms := [] } (x i, y i) (x j, y j) :=
    .inl ⟨sph_grows, fun i j hij h0 => hij (hd (anisoDist2_eq_zero (sc := 1) one_ne_zero 0 h0))⟩
  obtain ⟨s, h, hps⟩ := C29_create_uk stdEnv hn x y z { uany "spherical" [3, 2, 1] with driftTerms := [] } (by simp [uany]) rfl rfl rfl
    sph_valid hs (fun i hc => by simp at hc) (fun hc => by simp at hc) (fun hc => by simp at hc) (fun hc => by simp at hc)
  refine ⟨s, h, hps, fun ea h1 h2 h3 => C29_execute_uk h rfl (hps ▸ sph_valid) (hps ▸ hs) (.inr ?_) h1 h2 (fun hc => by simp at hc)
    (.inr ⟨h3, by simp, fun j p _ _ hc => by simp [AtWell] at hc⟩) (fun j p _ _ hc => by simp at hc)⟩
  intro a b hi
  exact ⟨fun i k hk => by simp [driftTerms2] at hk, by simpa [driftTerms2] using hi ⟨0, by omega⟩⟩

theorem plain_uk3_ok {n : ℕ} (hn : 2 ≤ n) {x y z : Fin n → ℝ} (v : Fin n → ℝ) (hd : Function.Injective fun i => (x i, y i, z i)) :
    ∃ s, UK3D.create stdEnv x y z v { uany3 "spherical" [3, 2, 1] with driftTerms := [] } = .ok s ∧ s.params = listMeaning "spherical" [3, 2, 1] ∧
      ∀ ea : UK3DExecArgs, WellPosed3 ea.toExec → HasFloats3 ea.toExec → ea.toExec.backend = "loop" → ∃ r, s.execute ea = .ok r := by
  have hs : Separates (listMeaning "spherical" [3, 2, 1]) fun i j =>
      uk3Distance { uany3 "spherical" [3, 2, 1] with driftTerms := [] } (x i, y i, z i) (x j, y j, z j) :=
    .inl ⟨sph_grows, fun i j hij h0 => hij (hd (distance3_eq_zero h0))⟩
  obtain ⟨s, h, hps⟩ := C29_create_uk3d stdEnv hn x y z v { uany3 "spherical" [3, 2, 1] with driftTerms := [] } (by simp [uany3]) rfl rfl rfl
    sph_valid hs (fun hc => by simp at hc) (fun hc => by simp at hc)
  refine ⟨s, h, hps, fun ea h1 h2 h3 => C29_execute_uk3d h rfl (hps ▸ sph_valid) (hps ▸ hs) (.inr ?_) h1 h2 (fun hc => by simp at hc)
    (.inr ⟨h3, by simp⟩)⟩
  intro a b hi
  exact ⟨fun i k hk => by simp [driftTerms3] at hk, by simpa [driftTerms3] using hi ⟨0, by omega⟩⟩

/-- C65 (OK). -/
example (z : Fin 4 → ℝ) : ∃ s, OK.create stdEnv x4 y4 z { any "spherical" [3, 2, 1] with enableStatistics := true } = .ok s ∧
    ∃ t : (i : Fin 4) → 2 ≤ i.val → OK i.val, (∀ i hi, OK.create stdEnv (fun a => x4 (before i a)) (fun a => y4 (before i a)) (fun a => z (before i a)) (any "spherical" [3, 2, 1]) = .ok (t i hi)) ∧
    ∃ r : Fin 4 → ExecResult, (∀ i hi, (t i hi).execute stdEnv (pts [(x4 i, y4 i)] "loop") = .ok (r i)) ∧
    ∃ st est var, s.stats = some st ∧ ResidualsOf z est var st ∧
      ∀ i, 2 ≤ i.val → (r i).z[0]? = some (some (est i)) ∧ (r i).ss[0]? = some (some (var i)) := by
  have hs0 : Separates (listMeaning "spherical" [3, 2, 1]) fun i j => okDistance (any "spherical" [3, 2, 1]) (x4 i, y4 i) (x4 j, y4 j) :=
    .inl ⟨sph_grows, fun i j hij h0 => hij (inj4 (anisoDist2_eq_zero (sc := 1) one_ne_zero 0 (by
      simpa [okDistance, distance2, any, effScaling, effAngle] using h0)))⟩
  obtain ⟨s, h, hp⟩ := C29_create_2d stdEnv (n := 4) (by norm_num) x4 y4 z { any "spherical" [3, 2, 1] with enableStatistics := true } (by simp [any]) rfl rfl rfl rfl sph_valid hs0
  obtain ⟨hb, -, -, γ, hγ, -, -⟩ := sph_valid.builtin
  obtain ⟨hev, -⟩ := chosen_evaluates hγ hb (OK.create_function h (m := "spherical") rfl)
  rw [← hp] at hev
  choose t ht hp' ha' hr' using fun (i : Fin 4) (hi : 2 ≤ i.val) => any_ok (n := i.val) hi (fun a => z (before i a)) sph_valid sph_grows (inj4.comp (before_inj i))
  have hev' : ∀ i hi, (t i hi).variogramFunction (t i hi).params = .ok γ := fun i hi => by
    obtain ⟨hev, -⟩ := chosen_evaluates hγ hb (OK.create_function (ht i hi) (m := "spherical") rfl)
    rw [hp']
    exact hev
  have hrun : ∀ i : Fin 4, ∃ r, ∀ hi, (t i hi).execute stdEnv (pts [(x4 i, y4 i)] "loop") = .ok r := fun i => by
    by_cases hi : 2 ≤ i.val
    · obtain ⟨r, hr⟩ := hr' i hi (pts [(x4 i, y4 i)] "loop") (pts_wellPosed _ _).1 (by intro k hk; cases hk) (by intro k hk; cases hk) (pts_wellPosed _ _).2 (.inl rfl)
      exact ⟨r, fun _ => hr⟩
    · exact ⟨nan_result.some, fun h => absurd h hi⟩
  choose r hr using hrun
  have hfar : ∀ i j, i ≠ j → 1 / 10 ^ 10 < okDistance (any "spherical" [3, 2, 1]) (x4 i, y4 i) (x4 j, y4 j) := fun i j hij => by
    refine lt_of_lt_of_le (b := 1) (by norm_num) ?_
    simp [okDistance, distance2, any, effScaling, effAngle, anisoDist2, rad]
    nlinarith [grid_apart i j hij]
  obtain ⟨st, est, var, h1, h2, -, h3⟩ := C65_statistics_2d (args := { any "spherical" [3, 2, 1] with enableStatistics := true }) h rfl rfl hev hfar (.list [3, 2, 1]) false (args' := (any "spherical" [3, 2, 1])) rfl ht hev' (fun i hi => ha' i hi none (by intro k hk; cases hk)) (fun _ => rfl) (ea := fun i => (pts [(x4 i, y4 i)] "loop")) hr (j := fun _ => 0)
    (fun i _ => by simp [queryAt, pts]) (fun _ _ => rfl)
  exact ⟨s, h, t, ht, r, hr, st, est, var, h1, h2, h3⟩

/-- C65 (OK3D). -/
example (v : Fin 4 → ℝ) : ∃ s, OK3D.create stdEnv x4 y4 z4 v (any3 "spherical" [3, 2, 1]) = .ok s ∧
    ∃ t : (i : Fin 4) → 2 ≤ i.val → OK3D i.val, (∀ i hi, OK3D.create stdEnv (fun a => x4 (before i a)) (fun a => y4 (before i a)) (fun a => z4 (before i a)) (fun a => v (before i a)) (any3 "spherical" [3, 2, 1]) = .ok (t i hi)) ∧
    ∃ r : Fin 4 → ExecResult, (∀ i hi, (t i hi).execute stdEnv (pts3 [(x4 i, y4 i, z4 i)] "loop") = .ok (r i)) ∧
    ∃ st est var, s.stats = some st ∧ ResidualsOf v est var st ∧
      ∀ i, 2 ≤ i.val → (r i).z[0]? = some (some (est i)) ∧ (r i).ss[0]? = some (some (var i)) := by
  obtain ⟨s, h, hp, -⟩ := any3_ok (n := 4) (by norm_num) v sph_valid sph_grows inj4'
  obtain ⟨hb, -, -, γ, hγ, -, -⟩ := sph_valid.builtin
  obtain ⟨hev, -⟩ := chosen_evaluates hγ hb (OK3D.create_function h (m := "spherical") rfl)
  rw [← hp] at hev
  choose t ht hp' hr' using fun (i : Fin 4) (hi : 2 ≤ i.val) => any3_ok (n := i.val) hi (fun a => v (before i a)) sph_valid sph_grows (inj4'.comp (before_inj i))
  have hev' : ∀ i hi, (t i hi).variogramFunction (t i hi).params = .ok γ := fun i hi => by
    obtain ⟨hev, -⟩ := chosen_evaluates hγ hb (OK3D.create_function (ht i hi) (m := "spherical") rfl)
    rw [hp']
    exact hev
  have hrun : ∀ i : Fin 4, ∃ r, ∀ hi, (t i hi).execute stdEnv (pts3 [(x4 i, y4 i, z4 i)] "loop") = .ok r := fun i => by
    by_cases hi : 2 ≤ i.val
    · obtain ⟨r, hr⟩ := hr' i hi (pts3 [(x4 i, y4 i, z4 i)] "loop") (pts_wellPosed3 _ _).1 (by intro k hk; cases hk) (by intro k hk; cases hk) (pts_wellPosed3 _ _).2 (.inl rfl)
      exact ⟨r, fun _ => hr⟩
    · exact ⟨nan_result.some, fun h => absurd h hi⟩
  choose r hr using hrun
  have hfar : ∀ i j, i ≠ j → 1 / 10 ^ 10 < ok3Distance (any3 "spherical" [3, 2, 1]) (x4 i, y4 i, z4 i) (x4 j, y4 j, z4 j) := fun i j hij => by
    refine lt_of_lt_of_le (b := 1) (by norm_num) ?_
    simp [ok3Distance, distance3, rotX, rotY, rotZ, any3, effAniso, rad]
    nlinarith [grid_apart i j hij, sq_nonneg (z4 i - z4 j)]
  obtain ⟨st, est, var, h1, h2, -, h3⟩ := C65_statistics_3d (args := (any3 "spherical" [3, 2, 1])) h rfl hev hfar (.list [3, 2, 1]) (args' := (any3 "spherical" [3, 2, 1])) rfl ht hev' stdEnv_knn (fun _ => rfl) (ea := fun i => (pts3 [(x4 i, y4 i, z4 i)] "loop")) hr (j := fun _ => 0)
    (fun i _ => by simp [queryAt3, pts3]) (fun _ _ => rfl)
  exact ⟨s, h, t, ht, r, hr, st, est, var, h1, h2, h3⟩

/-- C65 (UK). -/
example (z : Fin 4 → ℝ) : ∃ s, UK.create stdEnv x4 y4 z (uany "spherical" [3, 2, 1]) = .ok s ∧
    ∃ t : (i : Fin 4) → 2 ≤ i.val → UK i.val, (∀ i hi, UK.create stdEnv (fun a => x4 (before i a)) (fun a => y4 (before i a)) (fun a => z (before i a)) { uany "spherical" [3, 2, 1] with driftTerms := [] } = .ok (t i hi)) ∧
    ∃ r : Fin 4 → ExecResult, (∀ i hi, (t i hi).execute { toExec := pts [(x4 i, y4 i)] "loop" } = .ok (r i)) ∧
    ∃ st est var, s.stats = some st ∧ ResidualsOf z est var st ∧
      ∀ i, 2 ≤ i.val → (r i).z[0]? = some (some (est i)) ∧ (r i).ss[0]? = some (some (var i)) := by
  obtain ⟨s, h, hp, -⟩ := uany_ok (n := 4) (by norm_num) z sph_valid sph_grows inj4 plane4
  obtain ⟨hb, -, -, γ, hγ, -, -⟩ := sph_valid.builtin
  obtain ⟨hev, -⟩ := chosen_evaluates hγ hb (UK.create_function h (m := "spherical") rfl)
  rw [← hp] at hev
  choose t ht hp' hr' using fun (i : Fin 4) (hi : 2 ≤ i.val) => plain_uk_ok (n := i.val) hi (fun a => z (before i a)) (inj4.comp (before_inj i))
  have hev' : ∀ i hi, (t i hi).variogramFunction (t i hi).params = .ok γ := fun i hi => by
    obtain ⟨hev, -⟩ := chosen_evaluates hγ hb (UK.create_function (ht i hi) (m := "spherical") rfl)
    rw [hp']
    exact hev
  have hrun : ∀ i : Fin 4, ∃ r, ∀ hi, (t i hi).execute { toExec := pts [(x4 i, y4 i)] "loop" } = .ok r := fun i => by
    by_cases hi : 2 ≤ i.val
    · obtain ⟨r, hr⟩ := hr' i hi { toExec := pts [(x4 i, y4 i)] "loop" } (pts_wellPosed _ _).1 (pts_wellPosed _ _).2 rfl
      exact ⟨r, fun _ => hr⟩
    · exact ⟨nan_result.some, fun h => absurd h hi⟩
  choose r hr using hrun
  have hfar : ∀ i j, i ≠ j → 1 / 10 ^ 10 < ukDistance (uany "spherical" [3, 2, 1]) (x4 i, y4 i) (x4 j, y4 j) := fun i j hij => by
    refine lt_of_lt_of_le (b := 1) (by norm_num) ?_
    simp [ukDistance, uany, effScaling, effAngle, anisoDist2, rad]
    nlinarith [grid_apart i j hij]
  obtain ⟨st, est, var, h1, h2, -, h3⟩ := C65_statistics_uk (args := (uany "spherical" [3, 2, 1])) h rfl hev hfar (.list [3, 2, 1]) (args' := { uany "spherical" [3, 2, 1] with driftTerms := [] }) rfl ht hev'  (ea := fun i => { toExec := pts [(x4 i, y4 i)] "loop" }) hr (j := fun _ => 0)
    (fun i _ => by simp [queryAt, pts]) (fun _ _ => rfl)
  exact ⟨s, h, t, ht, r, hr, st, est, var, h1, h2, h3⟩

/-- C65 (UK3D). -/
example (v : Fin 4 → ℝ) : ∃ s, UK3D.create stdEnv x4 y4 z4 v (uany3 "spherical" [3, 2, 1]) = .ok s ∧
    ∃ t : (i : Fin 4) → 2 ≤ i.val → UK3D i.val, (∀ i hi, UK3D.create stdEnv (fun a => x4 (before i a)) (fun a => y4 (before i a)) (fun a => z4 (before i a)) (fun a => v (before i a)) { uany3 "spherical" [3, 2, 1] with driftTerms := [] } = .ok (t i hi)) ∧
    ∃ r : Fin 4 → ExecResult, (∀ i hi, (t i hi).execute { toExec := pts3 [(x4 i, y4 i, z4 i)] "loop" } = .ok (r i)) ∧
    ∃ st est var, s.stats = some st ∧ ResidualsOf v est var st ∧
      ∀ i, 2 ≤ i.val → (r i).z[0]? = some (some (est i)) ∧ (r i).ss[0]? = some (some (var i)) := by
  obtain ⟨s, h, hp, -⟩ := uany3_ok (n := 4) (by norm_num) v sph_valid sph_grows inj4' space4
  obtain ⟨hb, -, -, γ, hγ, -, -⟩ := sph_valid.builtin
  obtain ⟨hev, -⟩ := chosen_evaluates hγ hb (UK3D.create_function h (m := "spherical") rfl)
  rw [← hp] at hev
  choose t ht hp' hr' using fun (i : Fin 4) (hi : 2 ≤ i.val) => plain_uk3_ok (n := i.val) hi (fun a => v (before i a)) (inj4'.comp (before_inj i))
  have hev' : ∀ i hi, (t i hi).variogramFunction (t i hi).params = .ok γ := fun i hi => by
    obtain ⟨hev, -⟩ := chosen_evaluates hγ hb (UK3D.create_function (ht i hi) (m := "spherical") rfl)
    rw [hp']
    exact hev
  have hrun : ∀ i : Fin 4, ∃ r, ∀ hi, (t i hi).execute { toExec := pts3 [(x4 i, y4 i, z4 i)] "loop" } = .ok r := fun i => by
    by_cases hi : 2 ≤ i.val
    · obtain ⟨r, hr⟩ := hr' i hi { toExec := pts3 [(x4 i, y4 i, z4 i)] "loop" } (pts_wellPosed3 _ _).1 (pts_wellPosed3 _ _).2 rfl
      exact ⟨r, fun _ => hr⟩
    · exact ⟨nan_result.some, fun h => absurd h hi⟩
  choose r hr using hrun
  have hfar : ∀ i j, i ≠ j → 1 / 10 ^ 10 < uk3Distance (uany3 "spherical" [3, 2, 1]) (x4 i, y4 i, z4 i) (x4 j, y4 j, z4 j) := fun i j hij => by
    refine lt_of_lt_of_le (b := 1) (by norm_num) ?_
    simp [uk3Distance, distance3, rotX, rotY, rotZ, uany3, effAniso, rad]
    nlinarith [grid_apart i j hij, sq_nonneg (z4 i - z4 j)]
  obtain ⟨st, est, var, h1, h2, -, h3⟩ := C65_statistics_uk3d (args := (uany3 "spherical" [3, 2, 1])) h rfl hev hfar (.list [3, 2, 1]) (args' := { uany3 "spherical" [3, 2, 1] with driftTerms := [] }) rfl ht hev'  (ea := fun i => { toExec := pts3 [(x4 i, y4 i, z4 i)] "loop" }) hr (j := fun _ => 0)
    (fun i _ => by simp [queryAt3, pts3]) (fun _ _ => rfl)
  exact ⟨s, h, t, ht, r, hr, st, est, var, h1, h2, h3⟩

end
end PyKrige.Demo
