import Verif.Examples.Use1
import Verif.Props.C15
import Verif.Props.C17
import Verif.Props.C17Globe
import Verif.Props.C17Mirror
import Verif.Props.C18
import Verif.Props.C19Accept
import Verif.Props.C20
import Verif.Props.C21
import Verif.Props.C22
import Verif.Props.C23

/-!
Theorems C15 – C22 applied to the four objects of `Objects.lean`: every hypothesis is met by a concrete case.
-/

namespace PyKrige.Demo
noncomputable section
open Spec

theorem noTies {α : Type} {n : ℕ} (q : ℕ → Option α) (d : α → Fin n → ℝ) : NoTies none q d := fun h => absurd rfl h

/-! C15: the data in reverse order -/
theorem rev_inj : Function.Injective fun i => (x4 (Fin.revPerm i), y4 (Fin.revPerm i)) :=
  inj4.comp Fin.revPerm.injective
theorem rev_inj' : Function.Injective fun i => (x4 (Fin.revPerm i), y4 (Fin.revPerm i), z4 (Fin.revPerm i)) :=
  inj4'.comp Fin.revPerm.injective
theorem rev_space : Space (fun i => x4 (Fin.revPerm i)) (fun i => y4 (Fin.revPerm i)) (fun i => z4 (Fin.revPerm i)) :=
  fun a b c d h => space4 a b c d fun i => by simpa using h (Fin.revPerm i)

example (z : Fin 4 → ℝ) := (any_ok (n := 4) (by norm_num) (fun i => z (Fin.revPerm i)) sph_valid sph_grows rev_inj).imp fun _ h =>
  ((C15_ok Fin.revPerm (S2_ok z) h.1).2.2 _ (S2_adm _ fits_none) (noTies _ _) _).1 (R2_ok _ good_grid)
example (z : Fin 4 → ℝ) := (any3_ok (n := 4) (by norm_num) (fun i => z (Fin.revPerm i)) sph_valid sph_grows rev_inj').imp fun _ h =>
  ((C15_ok3 Fin.revPerm (S3_ok z) h.1).2.2 _ stdEnv_knn fits_none (noTies _ _) _).1 (R3_ok _ good_grid3)
example (z : Fin 4 → ℝ) := (uany3_ok (n := 4) (by norm_num) (fun i => z (Fin.revPerm i)) sph_valid sph_grows rev_inj' rev_space).imp fun _ h =>
  ((C15_uk3 Fin.revPerm (U3_ok z) h.1).2.2 _ _).1 (Q3_ok _ good_gridU3)

/-! C16 -/
example (z : Fin 4 → ℝ) := (C16_full_turn_2d (S2_ok z) 1).imp fun _ h => h.2.2.2.2 _ (S2_adm _ fits_none) (noTies _ _) _ (R2_ok _ good_grid)
example (z : Fin 4 → ℝ) := (C16_full_turn_3d (S3_ok z) 1 0 (-2) rfl).imp fun _ h => h.2.2.2.2 _ stdEnv_knn fits_none (noTies _ _) _ (R3_ok _ good_grid3)
example (z : Fin 4 → ℝ) := (C16_angle_irrelevant_3d (S3_ok z) rfl rfl rfl 10 20 30).imp fun _ h =>
  h.2.2.2.2 _ stdEnv_knn fits_none (noTies _ _) _ (R3_ok _ good_grid3)
example (z : Fin 4 → ℝ) := (C16_only_distances_2d (S2_ok z) (x' := x4) (y' := y4) (sc' := 1) (an' := 30) rfl (fun i j => by
    simp [okDistance, distance2, any, effScaling, effAngle, C16_plain_2d])).imp fun _ h => h.2.2.2.2 id (fun p i => by
    simp [okDistance, distance2, any, effScaling, effAngle, C16_plain_2d]) _ _ (S2_adm _ fits_none) (moved_id _) (noTies _ _) _ (R2_ok _ good_grid)

/-! C17 -/
/-- A rotation about the third axis. -/
def turnZ : Matrix (Fin 3) (Fin 3) ℝ := !![0, -1, 0; 1, 0, 0; 0, 0, 1]
theorem turnZ_orth : turnZ.transpose * turnZ = 1 := by
  ext i j
  fin_cases i <;> fin_cases j <;> simp [turnZ, Matrix.mul_apply, Fin.sum_univ_three]

example (z : Fin 4 → ℝ) := (C17_rotate_isotropic_ok (S2_ok z) rfl rfl 30 (7, -3) (x' := fun i => (affine2 (rotation 30) (7, -3) (x4 i, y4 i)).1)
    (y' := fun i => (affine2 (rotation 30) (7, -3) (x4 i, y4 i)).2) fun _ => rfl).imp fun _ h =>
  h.2.2.2.2 _ _ (moved_points _ L2 "loop" none) (S2_adm _ fits_none) (noTies _ _) _ (R2_ok _ (good_points L2 (b := "loop") (by simp)))
example (z : Fin 4 → ℝ) := (C17_rotate_isotropic_ok3 (S3_ok z) rfl rfl turnZ_orth (7, -3, 5) (x' := fun i => (affine3 turnZ (7, -3, 5) (x4 i, y4 i, z4 i)).1)
    (y' := fun i => (affine3 turnZ (7, -3, 5) (x4 i, y4 i, z4 i)).2.1) (z' := fun i => (affine3 turnZ (7, -3, 5) (x4 i, y4 i, z4 i)).2.2) fun _ => rfl).imp fun _ h =>
  h.2.2.2.2 _ _ (moved_points3 _ L3 "loop" none) stdEnv_knn fits_none (noTies _ _) _ (R3_ok _ (good_points3 L3 (b := "loop") (by simp)))
example (z : Fin 4 → ℝ) := (C17_rotate_isotropic_uk3 (U3_ok z) (by simp [uany3]) rfl rfl rfl turnZ_orth (7, -3, 5) (x' := fun i => (affine3 turnZ (7, -3, 5) (x4 i, y4 i, z4 i)).1)
    (y' := fun i => (affine3 turnZ (7, -3, 5) (x4 i, y4 i, z4 i)).2.1) (z' := fun i => (affine3 turnZ (7, -3, 5) (x4 i, y4 i, z4 i)).2.2) fun _ => rfl).imp fun _ h =>
  h.2.2.2.2 { toExec := pointsCall3 L3 "loop" } { toExec := pointsCall3 (L3.map (affine3 turnZ (7, -3, 5))) "loop" } (moved_points3 _ L3 "loop" none) rfl _ (Q3_ok _ (good_pointsU3 L3 (b := "loop") (by simp)))
example (z : Fin 4 → ℝ) := (C17_rotate_uk (U2_ok z) (by simp [uany]) rfl rfl one_ne_zero 30 (7, -3) (x' := fun i => (affine2 (rotation 30) (7, -3) (x4 i, y4 i)).1)
    (y' := fun i => (affine2 (rotation 30) (7, -3) (x4 i, y4 i)).2) fun _ => rfl).imp fun _ h =>
  h.2.2.2.2 { toExec := pointsCall L2 "loop" } { toExec := pointsCall (L2.map (affine2 (rotation 30) (7, -3))) "loop" } (moved_points _ L2 "loop" none) rfl _ (Q2_ok _ (good_pointsU L2 (b := "loop") (by simp)))
example (z : Fin 4 → ℝ) := (C17_mirror_uk (U2_ok z) (by simp [uany]) rfl rfl one_ne_zero 30 (7, -3) (x' := fun i => (affine2 (reflection 30) (7, -3) (x4 i, y4 i)).1)
    (y' := fun i => (affine2 (reflection 30) (7, -3) (x4 i, y4 i)).2) fun _ => rfl).imp fun _ h =>
  h.2.2.2.2 { toExec := pointsCall L2 "loop" } { toExec := pointsCall (L2.map (affine2 (reflection 30) (7, -3))) "loop" } (moved_points _ L2 "loop" none) rfl _ (Q2_ok _ (good_pointsU L2 (b := "loop") (by simp)))
example (z : Fin 4 → ℝ) := (C17_swap_uk (U2_ok z) (by simp [uany]) rfl rfl one_ne_zero).imp fun _ h =>
  h.2.2.2.2 { toExec := pointsCall L2 "loop" } { toExec := pointsCall (L2.map Prod.swap) "loop" } (moved_points _ L2 "loop" none) rfl _ (Q2_ok _ (good_pointsU L2 (b := "loop") (by simp)))
example (z : Fin 4 → ℝ) := (C17_shift_ok3 (S3_ok z) (7, -3, 5)).imp fun _ h => h.2.2.2.2 _ stdEnv_knn fits_none (noTies _ _) _ (R3_ok _ good_grid3)
example (z : Fin 4 → ℝ) := (C17_shift_uk3 (U3_ok z) (.inl rfl) (7, -3, 5)).imp fun _ h => h.2.2.2.2 _ _ (Q3_ok _ good_gridU3)


/-! C18 -/
example (z : Fin 4 → ℝ) := (C18_object_ok (S2_ok z)).imp fun _ h => And.intro (C18_groups h.1 (by decide)) (C18_weighted_mean h.1 (by decide))
example (z : Fin 4 → ℝ) := (C18_object_ok3 (S3_ok z)).imp fun _ h => And.intro (C18_groups h.1 (by decide)) (C18_weighted_mean h.1 (by decide))
example (z : Fin 4 → ℝ) := (C18_object_uk (U2_ok z)).imp fun _ h => And.intro (C18_groups h.1 (by decide)) (C18_weighted_mean h.1 (by decide))
example (z : Fin 4 → ℝ) := (C18_object_uk3 (U3_ok z)).imp fun _ h => And.intro (C18_groups h.1 (by decide)) (C18_weighted_mean h.1 (by decide))

/-! C20 -/
example (z : Fin 4 → ℝ) := (U2_vario z).imp fun _ h => C20_object_uk (U2_ok z) h (.inl rfl)
example (z : Fin 4 → ℝ) := (U3_vario z).imp fun _ h => C20_object_uk3 (U3_ok z) h (.inl rfl)

/-! C21 -/
example (a b c : ℝ) {j : ℕ} {v : ℝ} := C21_affine_uk (j := j) (v := v) (U2_ok fun i => a + b * x4 i + c * y4 i) rfl (by simp [uany]) (by simp [uany]) a b c (fun _ => rfl) (Q2_ok _ good_gridU)
example (a b c d : ℝ) {j : ℕ} {v : ℝ} := C21_affine_uk3d (j := j) (e := v) (U3_ok fun i => a + b * x4 i + c * y4 i + d * z4 i) rfl (by simp [uany3]) (by simp [uany3]) a b c d (fun _ => rfl) (Q3_ok _ good_gridU3)

/-! C22 -/
example (z : Fin 4 → ℝ) := C22_no_warning_2d (U2_ok z)
example (z : Fin 4 → ℝ) := C22_no_warning_3d (U3_ok z)

end
end PyKrige.Demo
