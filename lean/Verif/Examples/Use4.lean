import Verif.Examples.Use3
import Verif.Props.C41
import Verif.Props.C51

/-!
Theorems C40, C48, C49, C51 applied to the four objects of `Objects.lean`.
-/

set_option linter.unusedSimpArgs false

namespace PyKrige.Demo
noncomputable section
open Spec

theorem extU (p : ℝ × ℝ) : ExternalCovers B2 p := fun h => absurd h (by simp [uany])
theorem sph_builtin : Builtin "spherical" (listMeaning "spherical" [3, 2, 1]) sph := by
  obtain ⟨hb, -, -, γ, hγ, -⟩ := sph_valid.builtin
  obtain ⟨hev, -⟩ := chosen_evaluates hγ hb (OK.create_function (S2_ok 0) (m := "spherical") rfl)
  have := S2_sph 0
  rw [S2_params] at this
  rw [this] at hev
  cases hev
  exact hγ

/-! C40: requests that are answered … -/
theorem solvable2 : Solvable A2.pseudoInv (semivar sph fun i j => okDistance A2 (x4 i, y4 i) (x4 j, y4 j)) noF := by
  obtain ⟨-, -, -, -, h, -⟩ := (C40_execute_iff_2d (S2_ok 0) (S2_adm 0 fits_none) (S2_sph 0)).mp ⟨_, r2 0⟩
  exact h rfl
example (z : Fin 4 → ℝ) := (C40_execute_iff_2d (S2_ok z) (S2_adm z fits_two) (S2_sph z)).mp ⟨_, r2w z⟩
example (z : Fin 4 → ℝ) := (C40_execute_iff_3d (S3_ok z) stdEnv_knn fits_none (S3_sph z)).mp ⟨_, r3 z⟩
theorem solvableU (z : Fin 4 → ℝ) : Solvable B2.pseudoInv (semivar sph fun i j => ukDistance B2 (x4 i, y4 i) (x4 j, y4 j)) (U2 z).F :=
  ((C40_execute_iff_uk (U2_ok z) nospec (U2_sph z)).mp ⟨_, ru z⟩).2.2.2.2.1
theorem solvableU3 (z : Fin 4 → ℝ) : Solvable B3.pseudoInv
    (semivar sph fun i j => uk3Distance B3 (x4 i, y4 i, z4 i) (x4 j, y4 j, z4 j)) (U3 z).F :=
  ((C40_execute_iff_uk3d (U3_ok z) nospec3 (U3_sph z)).mp ⟨_, ru3 z⟩).2.2.2
example (z : Fin 4 → ℝ) := (C40_execute_iff_uk (U2_ok z) nospec (U2_sph z)).mp ⟨_, ru z⟩
example (z : Fin 4 → ℝ) := (C40_execute_iff_uk3d (U3_ok z) nospec3 (U3_sph z)).mp ⟨_, ru3 z⟩
example (z : Fin 4 → ℝ) := C40_answers_uk (U2_ok z) (ea := { toExec := grid32 }) (U2_sph z) good_gridU.1 good_gridU.2.1
  (fun h => absurd h nospec) rfl (fun _ _ _ => extU _) (solvableU z)
example (z : Fin 4 → ℝ) := C40_answers_uk3d (U3_ok z) (ea := { toExec := grid321 }) (U3_sph z) good_gridU3.1 good_gridU3.2.1
  (fun h => absurd h nospec3) rfl (solvableU3 z)

/-! … and requests that are refused: a backend, a style, a window or coordinates that do not exist. -/
example (z : Fin 4 → ℝ) := C40_backend_3d stdEnv (S3 z) (ea := pointsCall3 L3 "C") (.inr (.inr ⟨rfl, by simp [pointsCall3]⟩))
  (by simp [HasFloats3, pointsCall3]) (S3_sph z) (by simp [pointsCall3])
example (z : Fin 4 → ℝ) := C40_backend_3d stdEnv (S3 z) (ea := { pointsCall3 L3 "vectorized" with nClosest := some 2 })
  (.inr (.inr ⟨rfl, by simp [pointsCall3]⟩)) (by simp [HasFloats3, pointsCall3]) (S3_sph z) (by simp [pointsCall3])
example (z : Fin 4 → ℝ) := C40_backend_uk (U2_ok z) (ea := { toExec := pointsCall L2 "C" }) (.inr (.inr ⟨rfl, by simp [pointsCall]⟩))
  (by simp [HasFloats, pointsCall]) (fun h => absurd h nospec) (U2_sph z) (by simp [pointsCall])
example (z : Fin 4 → ℝ) := C40_backend_uk3d (U3_ok z) (ea := { toExec := pointsCall3 L3 "C" }) (.inr (.inr ⟨rfl, by simp [pointsCall3]⟩))
  (by simp [HasFloats3, pointsCall3]) (fun h => absurd h nospec3) (U3_sph z) (by simp [pointsCall3])
example (z : Fin 4 → ℝ) := C40_window_2d stdEnv (S2 z) (ea := { pointsCall L2 "loop" with nClosest := some 1 }) (by simp [pointsCall]) rfl (by norm_num)
example (z : Fin 4 → ℝ) := C40_window_3d stdEnv (S3 z) (ea := { pointsCall3 L3 "loop" with nClosest := some 1 }) rfl (by norm_num)
example (x y z : Fin 4 → ℝ) := C40_coordinates_type stdEnv x y z (args := { A2 with coordinatesType := "polar" }) (by simp [any]) rfl
  (.inl (by simp [builtins])) (by simp)
example (x y z : Fin 4 → ℝ) := C40_pinv_type_2d stdEnv x y z (args := { A2 with pseudoInvType := "svd" }) (by simp)
example (x y z : Fin 4 → ℝ) := C40_exact_values_2d stdEnv x y z (args := { A2 with exactValues := .notBool }) (by simp [any, any3, uany, uany3]) rfl
example (x y z : Fin 4 → ℝ) := C40_custom_2d stdEnv x y z (args := { A2 with variogramModel := .name "custom", params := .none }) rfl rfl
example (x y z : Fin 4 → ℝ) := C40_model_2d stdEnv x y z (args := { A2 with variogramModel := .name "cubic" }) (by simp [any, any3, uany, uany3]) rfl rfl (by simp [NameUsable, builtins])
example (x y z : Fin 4 → ℝ) := C40_params_2d stdEnv x y z (args := { A2 with params := .list [3, 2] }) (m := "spherical") rfl (by simp [ParamsWellFormed])
example (z : Fin 4 → ℝ) := C40_style_2d stdEnv (S2 z) (ea := { pointsCall L2 "vectorized" with style := "list" }) (by simp)
example (z : Fin 4 → ℝ) := C40_ill_posed_2d stdEnv (S2 z) (ea := { pointsCall L2 "vectorized" with xpoints := ⟨[1, 2], false⟩ }) (by simp [pointsCall]) win_none (by simp [WellPosed, pointsCall]) (S2_sph z)
example (z : Fin 4 → ℝ) := C40_ill_posed_2d stdEnv (S2 z) (ea := { pointsCall L2 "vectorized" with style := "masked" }) (by simp) win_none (by simp [WellPosed, pointsCall]) (S2_sph z)
example (x y z v : Fin 4 → ℝ) := C40_pinv_type_3d stdEnv x y z v (args := { A3 with pseudoInvType := "svd" }) (by simp)
example (x y z v : Fin 4 → ℝ) := C40_exact_values_3d stdEnv x y z v (args := { A3 with exactValues := .notBool }) (by simp [any, any3, uany, uany3]) rfl
example (x y z v : Fin 4 → ℝ) := C40_custom_3d stdEnv x y z v (args := { A3 with variogramModel := .name "custom", params := .none }) rfl rfl
example (x y z v : Fin 4 → ℝ) := C40_model_3d stdEnv x y z v (args := { A3 with variogramModel := .name "cubic" }) (by simp [any, any3, uany, uany3]) rfl rfl (by simp [NameUsable, builtins])
example (x y z v : Fin 4 → ℝ) := C40_params_3d stdEnv x y z v (args := { A3 with params := .list [3, 2] }) (m := "spherical") rfl (by simp [ParamsWellFormed])
example (v : Fin 4 → ℝ) := C40_style_3d stdEnv (S3 v) (ea := { pointsCall3 L3 "vectorized" with style := "list" }) (by simp)
example (v : Fin 4 → ℝ) := C40_ill_posed_3d stdEnv (S3 v) (ea := { pointsCall3 L3 "vectorized" with xpoints := ⟨[1, 2], false⟩ }) (by simp [pointsCall3]) (by simp [WellPosed3, pointsCall3]) (S3_sph v)
example (v : Fin 4 → ℝ) := C40_ill_posed_3d stdEnv (S3 v) (ea := { pointsCall3 L3 "vectorized" with style := "masked" }) (by simp) (by simp [WellPosed3, pointsCall3]) (S3_sph v)
example (x y z : Fin 4 → ℝ) := C40_pinv_type_uk stdEnv x y z (args := { B2 with pseudoInvType := "svd" }) (by simp)
example (x y z : Fin 4 → ℝ) := C40_exact_values_uk stdEnv x y z (args := { B2 with exactValues := .notBool }) (by simp [any, any3, uany, uany3]) rfl
example (x y z : Fin 4 → ℝ) := C40_custom_uk stdEnv x y z (args := { B2 with variogramModel := .name "custom", params := .none }) rfl rfl
example (x y z : Fin 4 → ℝ) := C40_model_uk stdEnv x y z (args := { B2 with variogramModel := .name "cubic" }) (by simp [any, any3, uany, uany3]) rfl rfl (by simp [NameUsable, builtins])
example (x y z : Fin 4 → ℝ) := C40_params_uk stdEnv x y z (args := { B2 with params := .list [3, 2] }) (m := "spherical") rfl (by simp [ParamsWellFormed])
example (z : Fin 4 → ℝ) := C40_style_uk (U2 z) (ea := { toExec := { pointsCall L2 "vectorized" with style := "list" } }) (by simp)
example (z : Fin 4 → ℝ) := C40_ill_posed_uk (U2 z) (ea := { toExec := { pointsCall L2 "vectorized" with xpoints := ⟨[1, 2], false⟩ } }) (by simp [pointsCall]) (by simp [WellPosed, pointsCall]) (U2_sph z)
example (z : Fin 4 → ℝ) := C40_ill_posed_uk (U2 z) (ea := { toExec := { pointsCall L2 "vectorized" with style := "masked" } }) (by simp) (by simp [WellPosed, pointsCall]) (U2_sph z)
example (x y z v : Fin 4 → ℝ) := C40_pinv_type_uk3d stdEnv x y z v (args := { B3 with pseudoInvType := "svd" }) (by simp)
example (x y z v : Fin 4 → ℝ) := C40_exact_values_uk3d stdEnv x y z v (args := { B3 with exactValues := .notBool }) (by simp [any, any3, uany, uany3]) rfl
example (x y z v : Fin 4 → ℝ) := C40_custom_uk3d stdEnv x y z v (args := { B3 with variogramModel := .name "custom", params := .none }) rfl rfl
example (x y z v : Fin 4 → ℝ) := C40_model_uk3d stdEnv x y z v (args := { B3 with variogramModel := .name "cubic" }) (by simp [any, any3, uany, uany3]) rfl rfl (by simp [NameUsable, builtins])
example (x y z v : Fin 4 → ℝ) := C40_params_uk3d stdEnv x y z v (args := { B3 with params := .list [3, 2] }) (m := "spherical") rfl (by simp [ParamsWellFormed])
example (v : Fin 4 → ℝ) := C40_style_uk3d (U3 v) (ea := { toExec := { pointsCall3 L3 "vectorized" with style := "list" } }) (by simp)
example (v : Fin 4 → ℝ) := C40_ill_posed_uk3d (U3 v) (ea := { toExec := { pointsCall3 L3 "vectorized" with xpoints := ⟨[1, 2], false⟩ } }) (by simp [pointsCall3]) (by simp [WellPosed3, pointsCall3]) (U3_sph v)
example (v : Fin 4 → ℝ) := C40_ill_posed_uk3d (U3 v) (ea := { toExec := { pointsCall3 L3 "vectorized" with style := "masked" } }) (by simp) (by simp [WellPosed3, pointsCall3]) (U3_sph v)
/-- Data at arbitrary places, also several at one place. -/
example (x y z : Fin 4 → ℝ) := C40_creates_2d stdEnv (by norm_num) x y z { A2 with pseudoInv := true, enableStatistics := true } (by simp [any, any3, uany, uany3]) rfl (.inl rfl) rfl (m := "spherical") (by simp [builtins]) rfl (by simp [ParamsWellFormed]) sph_builtin (fun _ _ _ => .inl rfl)
/-- Data at arbitrary places, also several at one place. -/
example (x y z v : Fin 4 → ℝ) := C40_creates_3d stdEnv (by norm_num) x y z v { A3 with pseudoInv := true } (by simp [any, any3, uany, uany3]) rfl rfl (m := "spherical") (by simp [builtins]) rfl (by simp [ParamsWellFormed]) sph_builtin (fun _ _ => .inl rfl)
/-- Data at arbitrary places, also several at one place. -/
example (x y z : Fin 4 → ℝ) := C40_creates_uk stdEnv (by norm_num) x y z { B2 with pseudoInv := true } (by simp [any, any3, uany, uany3]) rfl rfl (m := "spherical") (by simp [builtins]) rfl (by simp [ParamsWellFormed]) sph_builtin (fun _ _ => .inl rfl) (fun _ => extU _) (fun h => absurd h (by simp [uany])) (fun h => absurd h nospec) (fun h => absurd h nofunc)
/-- Data at arbitrary places, also several at one place. -/
example (x y z v : Fin 4 → ℝ) := C40_creates_uk3d stdEnv (by norm_num) x y z v { B3 with pseudoInv := true } (by simp [any, any3, uany, uany3]) rfl rfl (m := "spherical") (by simp [builtins]) rfl (by simp [ParamsWellFormed]) sph_builtin (fun _ _ => .inl rfl) (fun h => absurd h nospec3) (fun h => absurd h nofunc3)
end
end PyKrige.Demo
