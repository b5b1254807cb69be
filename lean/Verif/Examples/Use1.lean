import Verif.Examples.Objects
import Verif.Props.C04
import Verif.Props.C06
import Verif.Props.C07
import Verif.Props.C08
import Verif.Props.C09
import Verif.Props.C10
import Verif.Props.C12
import Verif.Props.C13
import Verif.Props.C14
import Verif.Props.C16

/-!
Theorems C04 – C14 applied to the four objects of `Objects.lean`: every hypothesis is met by a concrete case.
-/

namespace PyKrige.Demo
noncomputable section
open Spec

/-- The places asked for: between the data, at a datum, far away. -/
abbrev L2 : List (ℝ × ℝ) := [(1 / 2, 1 / 2), (1, 0), (30, 4)]
abbrev L3 : List (ℝ × ℝ × ℝ) := [(1 / 2, 1 / 2, 1), (1, 0, 0), (30, 4, 5)]

theorem gA2 : ParamsGiven A2.variogramModel A2.params := .inr (by simp [any])
theorem gA3 : ParamsGiven A3.variogramModel A3.params := .inr (by simp [any3])
theorem gB2 : ParamsGiven B2.variogramModel B2.params := .inr (by simp [uany])
theorem gB3 : ParamsGiven B3.variogramModel B3.params := .inr (by simp [uany3])

/-- Variogram of the four objects. -/
theorem S2_vario (z : Fin 4 → ℝ) : ∃ γ, (S2 z).variogramFunction (S2 z).params = .ok γ := by
  obtain ⟨hb, -, -, γ, hγ, -⟩ := sph_valid.builtin
  obtain ⟨hev, -⟩ := chosen_evaluates hγ hb (OK.create_function (S2_ok z) (m := "spherical") rfl)
  exact ⟨γ, S2_params z ▸ hev⟩
theorem S3_vario (z : Fin 4 → ℝ) : ∃ γ, (S3 z).variogramFunction (S3 z).params = .ok γ := by
  obtain ⟨hb, -, -, γ, hγ, -⟩ := sph_valid.builtin
  obtain ⟨hev, -⟩ := chosen_evaluates hγ hb (OK3D.create_function (S3_ok z) (m := "spherical") rfl)
  exact ⟨γ, S3_params z ▸ hev⟩
theorem U2_vario (z : Fin 4 → ℝ) : ∃ γ, (U2 z).variogramFunction (U2 z).params = .ok γ := by
  obtain ⟨hb, -, -, γ, hγ, -⟩ := sph_valid.builtin
  obtain ⟨hev, -⟩ := chosen_evaluates hγ hb (UK.create_function (U2_ok z) (m := "spherical") rfl)
  exact ⟨γ, U2_params z ▸ hev⟩
theorem U3_vario (z : Fin 4 → ℝ) : ∃ γ, (U3 z).variogramFunction (U3 z).params = .ok γ := by
  obtain ⟨hb, -, -, γ, hγ, -⟩ := sph_valid.builtin
  obtain ⟨hev, -⟩ := chosen_evaluates hγ hb (UK3D.create_function (U3_ok z) (m := "spherical") rfl)
  exact ⟨γ, U3_params z ▸ hev⟩

/-! C04 -/
example (c : ℝ) := C04_constant_2d (S2_ok fun _ => c) (S2_adm _ fits_none) (.inl rfl) (R2_ok _ (good_points L2 (b := "C") (by simp))) c fun _ => rfl
example (c : ℝ) := C04_constant_2d (S2_ok fun _ => c) (S2_adm _ fits_two) (.inl rfl) (R2_ok _ (good_window L2 (b := "C") (by simp))) c fun _ => rfl
example (c : ℝ) := C04_constant_3d (S3_ok fun _ => c) stdEnv_knn fits_none (.inl rfl) (R3_ok _ (good_points3 L3 (b := "loop") (by simp))) c fun _ => rfl
example (c : ℝ) := C04_constant_uk (U2_ok fun _ => c) rfl (Q2_ok _ (good_pointsU L2 (b := "loop") (by simp))) c fun _ => rfl
example (c : ℝ) := C04_constant_uk3d (U3_ok fun _ => c) rfl (Q3_ok _ (good_pointsU3 L3 (b := "loop") (by simp))) c fun _ => rfl
example (z : Fin 4 → ℝ) := C04_shift_2d (S2_ok z) (S2_adm _ fits_none) (.inl rfl) (R2_ok _ (good_points L2 (b := "C") (by simp))) 7
example (z : Fin 4 → ℝ) := C04_shift_3d (S3_ok z) stdEnv_knn fits_none (.inl rfl) (R3_ok _ (good_points3 L3 (b := "loop") (by simp))) 7
example (z : Fin 4 → ℝ) := C04_shift_uk (U2_ok z) rfl (Q2_ok _ (good_pointsU L2 (b := "loop") (by simp))) 7
example (z : Fin 4 → ℝ) := C04_shift_uk3d (U3_ok z) rfl (Q3_ok _ (good_pointsU3 L3 (b := "loop") (by simp))) 7

/-! C06 -/
example (z : Fin 4 → ℝ) := C06_exact_irrelevant_2d (S2_ok z) (S2_adm _ fits_none) false (R2_ok _ (good_points L2 (b := "C") (by simp)))
example (z : Fin 4 → ℝ) := C06_exact_irrelevant_3d (S3_ok z) stdEnv_knn fits_none false (R3_ok _ (good_points3 L3 (b := "loop") (by simp)))
example (z : Fin 4 → ℝ) := C06_exact_irrelevant_uk (U2_ok z) false (Q2_ok _ (good_pointsU L2 (b := "loop") (by simp)))
example (z : Fin 4 → ℝ) := C06_exact_irrelevant_uk3d (U3_ok z) false (Q3_ok _ (good_pointsU3 L3 (b := "loop") (by simp)))

/-! C07 -/
example (z z' : Fin 4 → ℝ) := C07_linear_2d (S2_ok z) (S2_adm _ fits_none) gA2 (R2_ok _ (good_points L2 (b := "C") (by simp))) z' 2 (-5)
example (z z' : Fin 4 → ℝ) := C07_linear_3d (S3_ok z) stdEnv_knn fits_none gA3 (R3_ok _ (good_points3 L3 (b := "loop") (by simp))) z' 2 (-5)
example (z z' : Fin 4 → ℝ) := C07_linear_uk (U2_ok z) gB2 (Q2_ok _ (good_pointsU L2 (b := "loop") (by simp))) z' 2 (-5)
example (z z' : Fin 4 → ℝ) := C07_linear_uk3d (U3_ok z) gB3 (Q3_ok _ (good_pointsU3 L3 (b := "loop") (by simp))) z' 2 (-5)
example (z : Fin 4 → ℝ) := C07_negate_2d (S2_ok z) (S2_adm _ fits_none) (R2_ok _ (good_points L2 (b := "C") (by simp)))
example (z : Fin 4 → ℝ) := C07_negate_3d (S3_ok z) stdEnv_knn fits_none (R3_ok _ (good_points3 L3 (b := "loop") (by simp)))
example (z : Fin 4 → ℝ) := C07_negate_uk (U2_ok z) (Q2_ok _ (good_pointsU L2 (b := "loop") (by simp)))
example (z : Fin 4 → ℝ) := C07_negate_uk3d (U3_ok z) (Q3_ok _ (good_pointsU3 L3 (b := "loop") (by simp)))

/-! C08: everything three times as large -/
theorem sph3_valid : ValidModel "spherical" (listMeaning "spherical" [3 * 3, 2, 3 * 1]) :=
  .inr (.inr ⟨6, 2, 3, by simp, by simp [listMeaning]; norm_num, by norm_num, by norm_num, by norm_num⟩)
theorem sph3_grows : Growing (listMeaning "spherical" [3 * 3, 2, 3 * 1]) :=
  ⟨6, [2, 3], by simp [listMeaning]; norm_num, by norm_num⟩
theorem resc : Rescaled 3 "spherical" (FunArg.none, [3, 2, 1]) (FunArg.none, [3 * 3, 2, 3 * 1]) := .sill _ (by decide) _ _ _ _
example (z : Fin 4 → ℝ) := (any_ok (n := 4) (by norm_num) z sph3_valid sph3_grows inj4).imp fun _ h =>
  C08_rescale_2d (args := A2) (by norm_num) rfl rfl resc (S2_ok z) h.1 (S2_adm _ fits_two) (h.2.2.1 _ fits_two) (.inl rfl) (R2_ok _ (good_window L2 (b := "C") (by simp)))
example (z : Fin 4 → ℝ) := (any3_ok (n := 4) (by norm_num) z sph3_valid sph3_grows inj4').imp fun _ h =>
  C08_rescale_3d (args := A3) (by norm_num) rfl rfl resc (S3_ok z) h.1 stdEnv_knn fits_two (.inl rfl) (R3_ok _ (good_window3 L3))
example (z : Fin 4 → ℝ) := (uany_ok (n := 4) (by norm_num) z sph3_valid sph3_grows inj4 plane4).imp fun _ h =>
  C08_rescale_uk (args := B2) (by norm_num) rfl rfl resc (U2_ok z) h.1 rfl (Q2_ok _ good_gridU)
example (z : Fin 4 → ℝ) := (uany3_ok (n := 4) (by norm_num) z sph3_valid sph3_grows inj4' space4).imp fun _ h =>
  C08_rescale_uk3d (args := B3) (by norm_num) rfl rfl resc (U3_ok z) h.1 rfl (Q3_ok _ good_gridU3)

/-! C09 -/
example (z : Fin 4 → ℝ) := C09_backends_uk (ea := { toExec := pointsCall L2 "" }) (U2_ok z) (by simp [uany])
  (Q2_ok _ (good_pointsU L2 (b := "loop") (by simp))) (Q2_ok _ (good_pointsU L2 (b := "vectorized") (by simp)))
example (z : Fin 4 → ℝ) := C09_loop_accepts_uk (ea := { toExec := pointsCall L2 "" }) (U2_ok z) (by simp [uany])
  (fun j p _ _ hc => by simp [AtWell, uany] at hc) (Q2_ok _ (good_pointsU L2 (b := "vectorized") (by simp)))
example (z : Fin 4 → ℝ) := C09_refused_2d (ea := { pointsCall L2 "vectorized" with nClosest := some 2 }) (S2_ok z) (S2_adm _ fits_two)
  (by simp [Supports, pointsCall])

/-! C10, C11: windows -/
example (z : Fin 4 → ℝ) := C10_full_window_conv_2d (ea := pointsCall L2 "loop") (S2_ok z) (S2_adm _ fits_all) (b' := "vectorized") (.inr (.inl ⟨rfl, rfl⟩))
  (R2_ok _ (good_window4 L2 (b := "C") (by simp))) ⟨0, (1 / 2, 1 / 2), by simp [queryAt, pointsCall], by simp [maskedAt, pointsCall]⟩
example (z : Fin 4 → ℝ) := C10_full_window_conv_3d (ea := pointsCall3 L3 "loop") (S3_ok z) stdEnv_knn (b' := "vectorized") (.inr rfl)
  (R3_ok _ (good_window43 L3)) ⟨0, (1 / 2, 1 / 2, 1), by simp [queryAt3, pointsCall3], by simp [maskedAt3, pointsCall3]⟩
example (z : Fin 4 → ℝ) := (C10_python_c (ea := pointsCall L2 "loop") (S2_ok z) (S2_adm _ fits_two) (good_window L2 (b := "C") (by simp)).2.2.2.2 _).1
  (R2_ok _ (good_window L2 (b := "loop") (by simp)))
example (z : Fin 4 → ℝ) := C11_neighbours_2d (k := 2) (S2_ok z) gA2 rfl (S2_adm _ fits_two) (R2_ok _ (good_window L2 (b := "C") (by simp)))
  (j := 1) (p := (1, 0)) (by simp [queryAt, pointsCall]) (by simp [maskedAt, pointsCall])
example (z : Fin 4 → ℝ) := C11_neighbours_3d (k := 2) (S3_ok z) gA3 rfl stdEnv_knn fits_two (R3_ok _ (good_window3 L3))
  (j := 1) (p := (1, 0, 0)) (by simp [queryAt3, pointsCall3]) (by simp [maskedAt3, pointsCall3])


theorem S2_dist (z : Fin 4 → ℝ) (p : ℝ × ℝ) (i : Fin 4) :
    distance2 (S2 z).coordinatesType (S2 z).anisotropyScaling (S2 z).anisotropyAngle p (x4 i, y4 i) =
      Real.sqrt ((p.1 - x4 i) ^ 2 + (p.2 - y4 i) ^ 2) := by
  obtain ⟨hpl, hx, hy, -⟩ := OK.create_placed (S2_ok z)
  have h1 := (OK.create_dist (S2_ok z)).2 p i
  rw [hpl.queryDist, hx, hy] at h1
  rw [h1]
  have : okDistance A2 p (x4 i, y4 i) = anisoDist2 1 0 p (x4 i, y4 i) := by simp [okDistance, distance2, any, effScaling, effAngle]
  rw [this, C16_plain_2d]

theorem S3_dist (z : Fin 4 → ℝ) (p : ℝ × ℝ × ℝ) (i : Fin 4) :
    distance3 (S3 z).aniso p (x4 i, y4 i, z4 i) =
      Real.sqrt ((p.1 - x4 i) ^ 2 + (p.2.1 - y4 i) ^ 2 + (p.2.2 - z4 i) ^ 2) := by
  obtain ⟨hpl, hx, hy, hz, -⟩ := OK3D.create_placed (S3_ok z)
  have h1 := (OK3D.create_dist (S3_ok z)).2 p i
  rw [hpl.queryDist, hx, hy, hz] at h1
  rw [h1]
  exact C16_plain_3d rfl rfl _ _

theorem inj2 : Function.Injective (![0, 1] : Fin 2 → Fin 4) := by decide

theorem near2 (z : Fin 4 → ℝ) : ∀ (i : Fin 2) (i' : Fin 4), i' ∉ Set.range (![0, 1] : Fin 2 → Fin 4) →
    distance2 (S2 z).coordinatesType (S2 z).anisotropyScaling (S2 z).anisotropyAngle (1 / 4, 0)
        (x4 ((![0, 1] : Fin 2 → Fin 4) i), y4 ((![0, 1] : Fin 2 → Fin 4) i)) <
      distance2 (S2 z).coordinatesType (S2 z).anisotropyScaling (S2 z).anisotropyAngle (1 / 4, 0) (x4 i', y4 i') := by
  intro i i' h
  rw [S2_dist, S2_dist]
  refine Real.sqrt_lt_sqrt (by positivity) ?_
  have h0 : i' ≠ 0 := fun e => h ⟨0, e.symm⟩
  have h1 : i' ≠ 1 := fun e => h ⟨1, e.symm⟩
  fin_cases i <;> fin_cases i' <;> first | exact absurd rfl h0 | exact absurd rfl h1 | (simp [x4, y4] <;> norm_num)

theorem near3 (z : Fin 4 → ℝ) : ∀ (i : Fin 2) (i' : Fin 4), i' ∉ Set.range (![0, 1] : Fin 2 → Fin 4) →
    distance3 (S3 z).aniso (1 / 4, 0, 0) (x4 ((![0, 1] : Fin 2 → Fin 4) i), y4 ((![0, 1] : Fin 2 → Fin 4) i),
        z4 ((![0, 1] : Fin 2 → Fin 4) i)) <
      distance3 (S3 z).aniso (1 / 4, 0, 0) (x4 i', y4 i', z4 i') := by
  intro i i' h
  rw [S3_dist, S3_dist]
  refine Real.sqrt_lt_sqrt (by positivity) ?_
  have h0 : i' ≠ 0 := fun e => h ⟨0, e.symm⟩
  have h1 : i' ≠ 1 := fun e => h ⟨1, e.symm⟩
  fin_cases i <;> fin_cases i' <;> first | exact absurd rfl h0 | exact absurd rfl h1 | (simp [x4, y4, z4] <;> norm_num)

/-- A datum outside the window is changed. -/
example (z : Fin 4 → ℝ) := C11_others_2d (k := 2) (S2_ok z) (S2_ok fun i => if i = 3 then 100 else z i) gA2 rfl rfl
  (S2_adm _ fits_two) (S2_adm _ fits_two) (R2_ok _ (good_window [(1 / 4, 0)] (b := "C") (by simp)))
  (R2_ok _ (good_window [(1 / 4, 0)] (b := "C") (by simp)))
  (j := 0) (j' := 0) (p := (1 / 4, 0)) (by simp [queryAt, pointsCall]) (by simp [queryAt, pointsCall])
  (by simp [maskedAt, pointsCall]) (by simp [maskedAt, pointsCall]) ![0, 1] ![0, 1] inj2 inj2
  (fun i => ⟨rfl, rfl, by fin_cases i <;> simp⟩) (near2 z) (near2 z)
example (z : Fin 4 → ℝ) := C11_others_3d (k := 2) (S3_ok z) (S3_ok fun i => if i = 3 then 100 else z i) gA3 rfl rfl
  stdEnv_knn fits_two fits_two (R3_ok _ (good_window3 [(1 / 4, 0, 0)])) (R3_ok _ (good_window3 [(1 / 4, 0, 0)]))
  (j := 0) (j' := 0) (p := (1 / 4, 0, 0)) (by simp [queryAt3, pointsCall3]) (by simp [queryAt3, pointsCall3])
  (by simp [maskedAt3, pointsCall3]) (by simp [maskedAt3, pointsCall3]) ![0, 1] ![0, 1] inj2 inj2
  (fun i => ⟨rfl, rfl, rfl, by fin_cases i <;> simp⟩) (near3 z) (near3 z)
example (z : Fin 4 → ℝ) := C11_subset_exists_2d (k := 2) (S2_ok z) gA2 rfl rfl (S2_adm _ fits_two)
  (R2_ok _ (good_window L2 (b := "C") (by simp))) ![0, 3]

/-! C12 -/
example (z : Fin 4 → ℝ) := C12_grid_exists_2d (ea := grid32) (S2_ok z) (S2_adm _ fits_none) rfl (by simp [grid32]) (by simp [grid32])
  fun i j _ _ => ⟨_, R2_ok _ (good_points [(grid32.xpoints.vals[i], grid32.ypoints.vals[j])] (b := "vectorized") (by simp))⟩
example (z : Fin 4 → ℝ) := C12_grid_exists_3d (ea := grid321) (S3_ok z) stdEnv_knn fits_none rfl (by simp [grid321]) (by simp [grid321]) (by simp [grid321])
  fun i j k _ _ _ => ⟨_, R3_ok _ (good_points3 [(grid321.xpoints.vals[i], grid321.ypoints.vals[j], grid321.zpoints.vals[k])] (b := "vectorized") (by simp))⟩
example (z : Fin 4 → ℝ) := C12_grid_exists_uk (ea := { toExec := grid32 }) (U2_ok z) (by simp [uany]) rfl (by simp [grid32]) (by simp [grid32])
  fun i j _ _ => ⟨_, Q2_ok _ (good_pointsU [(grid32.xpoints.vals[i], grid32.ypoints.vals[j])] (b := "vectorized") (by simp))⟩
example (z : Fin 4 → ℝ) := C12_grid_exists_uk3d (ea := { toExec := grid321 }) (U3_ok z) (by simp [uany3]) rfl (by simp [grid321]) (by simp [grid321]) (by simp [grid321])
  fun i j k _ _ _ => ⟨_, Q3_ok _ (good_pointsU3 [(grid321.xpoints.vals[i], grid321.ypoints.vals[j], grid321.zpoints.vals[k])] (b := "vectorized") (by simp))⟩

example (z : Fin 4 → ℝ) := C12_grid_2d (S2_ok z) (S2_adm _ fits_none) rfl (R2_ok _ good_grid)
example (z : Fin 4 → ℝ) := C12_grid_3d (S3_ok z) stdEnv_knn fits_none rfl (R3_ok _ good_grid3)
example (z : Fin 4 → ℝ) := C12_grid_uk (U2_ok z) (by simp [uany]) rfl (Q2_ok _ good_gridU)
example (z : Fin 4 → ℝ) := C12_grid_uk3d (U3_ok z) (by simp [uany3]) rfl (Q3_ok _ good_gridU3)

/-! C13 -/
theorem fits32 : MaskFits grid32 mask32 := .inl ⟨rfl, rfl⟩
example (z : Fin 4 → ℝ) := C13_grid_2d (S2_ok z) (S2_adm _ fits_none) fits32 (R2_ok _ good_grid)
theorem fits321 : MaskFits3 grid321 mask321 := ⟨rfl, .inl ⟨rfl, rfl⟩⟩
example (z : Fin 4 → ℝ) := C13_grid_3d (S3_ok z) stdEnv_knn fits_none fits321 (R3_ok _ good_grid3)
example (z : Fin 4 → ℝ) := C13_grid_uk (ea := { toExec := grid32 }) (U2_ok z) (by simp [uany]) fits32 (Q2_ok _ good_gridU)
example (z : Fin 4 → ℝ) := C13_grid_uk3d (ea := { toExec := grid321 }) (U3_ok z) (by simp [uany3]) fits321 (Q3_ok _ good_gridU3)
example (z : Fin 4 → ℝ) := C13_masked_2d (S2_ok z) (S2_adm _ fits_none) rfl (R2_ok _ good_masked)
example (z : Fin 4 → ℝ) := C13_masked_3d (S3_ok z) stdEnv_knn fits_none rfl (R3_ok _ good_masked3)
example (z : Fin 4 → ℝ) := C13_masked_uk (U2_ok z) (by simp [uany]) rfl (Q2_ok _ good_maskedU)
example (z : Fin 4 → ℝ) := C13_masked_uk3d (U3_ok z) (by simp [uany3]) rfl (Q3_ok _ good_maskedU3)
example (z : Fin 4 → ℝ) := C13_refused_2d (env := stdEnv) (ea := { grid32 with style := "masked" }) rfl (S2_vario z) win_none
example (z : Fin 4 → ℝ) := C13_refused_3d (env := stdEnv) (ea := { grid321 with style := "masked" }) rfl (S3_vario z)
example (z : Fin 4 → ℝ) := C13_refused_uk (ea := { toExec := { grid32 with style := "masked" } }) rfl (U2_vario z)
example (z : Fin 4 → ℝ) := C13_refused_uk3d (ea := { toExec := { grid321 with style := "masked" } }) rfl (U3_vario z)

/-! C14 -/
example (z : Fin 4 → ℝ) := C14_append_2d (S2_ok z) (S2_adm _ fits_two) (R2_ok _ (good_window L2 (b := "C") (by simp)))
  (R2_ok _ (good_window [(5, 6)] (b := "C") (by simp)))
example (z : Fin 4 → ℝ) := C14_append_3d (S3_ok z) stdEnv_knn fits_two (R3_ok _ (good_window3 L3)) (R3_ok _ (good_window3 [(5, 6, 7)]))
example (z : Fin 4 → ℝ) := C14_append_uk (vs := []) (U2_ok z) (.inr rfl)
  (Q2_ok _ ⟨.inr (.inr ⟨rfl, by simp [pointsCall]⟩), by simp [HasFloats, pointsCall], .inl rfl⟩ : (U2 z).execute { toExec := pointsCall L2 "vectorized", spec := .list [] } = _)
  (Q2_ok _ ⟨.inr (.inr ⟨rfl, by simp [pointsCall]⟩), by simp [HasFloats, pointsCall], .inl rfl⟩ : (U2 z).execute { toExec := pointsCall [(5, 6)] "vectorized", spec := .list [] } = _)
example (z : Fin 4 → ℝ) := C14_append_uk3d (vs := []) (U3_ok z) (.inr rfl)
  (Q3_ok _ ⟨.inr (.inr ⟨rfl, by simp [pointsCall3], by simp [pointsCall3]⟩), by simp [HasFloats3, pointsCall3], .inl rfl⟩ : (U3 z).execute { toExec := pointsCall3 L3 "vectorized", spec := .list [] } = _)
  (Q3_ok _ ⟨.inr (.inr ⟨rfl, by simp [pointsCall3], by simp [pointsCall3]⟩), by simp [HasFloats3, pointsCall3], .inl rfl⟩ : (U3 z).execute { toExec := pointsCall3 [(5, 6, 7)] "vectorized", spec := .list [] } = _)
example (z : Fin 4 → ℝ) := C14_pick_2d (S2_ok z) (S2_adm _ fits_none) (R2_ok _ good_grid) [5, 0, 5] (by simp [queryAt, maskedAt, grid32])
example (z : Fin 4 → ℝ) := C14_pick_3d (S3_ok z) stdEnv_knn fits_none (R3_ok _ good_grid3) [5, 0, 5] (by simp [queryAt3, maskedAt3, grid321])
example (z : Fin 4 → ℝ) := C14_pick_uk (U2_ok z) (.inr rfl) (Q2_ok _ good_gridU) [5, 0, 5] (by simp [queryAt, maskedAt, grid32])
example (z : Fin 4 → ℝ) := C14_pick_uk3d (U3_ok z) (.inr rfl) (Q3_ok _ good_gridU3) [5, 0, 5] (by simp [queryAt3, maskedAt3, grid321])

end
end PyKrige.Demo
