import Verif.Examples.Use4
import Verif.Props.C41Wells
import Verif.Lemmas.HeapUK
import Verif.Props.C46
import Verif.Props.C51

/-!
Theorems C41, C46, C48, C49, C51 applied to the four objects of `Objects.lean`.
-/

namespace PyKrige.Demo
noncomputable section
open Spec

theorem S2_ct (z : Fin 4 → ℝ) : (S2 z).coordinatesType = "euclidean" := OK.create_coordinates (S2_ok z)

/-! C41 -/
/-- The same grid with integer axes, and with one integer axis. -/
def int32 : ExecArgs := { style := "grid", xpoints := ⟨[0, 1, 2], true⟩, ypoints := ⟨[0, 1], true⟩, backend := "vectorized" }
def int321 : ExecArgs3 :=
  { style := "grid", xpoints := ⟨[0, 1, 2], true⟩, ypoints := ⟨[0, 1], true⟩, zpoints := ⟨[5], true⟩, backend := "vectorized" }
example (z : Fin 4 → ℝ) := C41_raises_2d stdEnv (S2 z) (ea := int32) (S2_ct z) win_none (.inl rfl) (by simp [HasFloats, int32]) (S2_sph z)
example (z : Fin 4 → ℝ) := C41_raises_3d stdEnv (S3 z) (ea := int321) (.inl rfl) (by simp [HasFloats3, int321]) (S3_sph z)
example (z : Fin 4 → ℝ) := C41_raises_uk (U2_ok z) (ea := { toExec := int32 }) (fun h => absurd h nospec) (.inl rfl) (by simp [HasFloats, int32]) (U2_sph z)
example (z : Fin 4 → ℝ) := C41_raises_uk3d (U3_ok z) (ea := { toExec := int321 }) (fun h => absurd h nospec3) (.inl rfl) (by simp [HasFloats3, int321]) (U3_sph z)
example (z : Fin 4 → ℝ) := C41_mixed_3d_partial stdEnv (S3 z) (ea := { int321 with zpoints := ⟨[1 / 2], false⟩ }) (by simp [HasFloats3])
example (z : Fin 4 → ℝ) := C41_mixed_uk_partial (U2 z) (ea := { toExec := { int32 with ypoints := ⟨[1 / 2], false⟩ } }) (by simp [HasFloats])
example (z : Fin 4 → ℝ) := C41_mixed_uk3d_partial (U3 z) (ea := { toExec := { int321 with ypoints := ⟨[1 / 2], false⟩ } }) (by simp [HasFloats3])
example (z : Fin 4 → ℝ) := C41_no_wells_partial stdEnv x4 y4 z (args := B2) (by simp [uany]) true
example := C41_wrong ![1, 2]

/-! C46 -/
theorem gs2 : SupportedOK gsEnv "euclidean" (gs 2 false) := ⟨gs_usable, by decide, fun h => by cases h⟩
theorem gsU : SupportedUK gsEnv (gs 2 false) := ⟨gs_usable, by decide, rfl⟩
theorem gs3 : Supported3 gsEnv (gs 3 false) := ⟨gs_usable, le_rfl⟩
example (x y z : Fin 4 → ℝ) := C46_ok_uses (env := gsEnv) x y z (args := { variogramModel := .gstools (gs 2 false) }) rfl gs2
example (x y z : Fin 4 → ℝ) := C46_uk_uses (env := gsEnv) x y z (args := { variogramModel := .gstools (gs 2 false) }) rfl gsU
example (x y z v : Fin 4 → ℝ) := C46_ok3d_uses (env := gsEnv) x y z v (args := { variogramModel := .gstools (gs 3 false) }) rfl gs3
example (x y z v : Fin 4 → ℝ) := C46_uk3d_uses (env := gsEnv) x y z v (args := { variogramModel := .gstools (gs 3 false) }) rfl gs3
example (z : Fin 4 → ℝ) := C46_ok_updates (env := gsEnv) (S2 z) (u := { variogramModel := .gstools (gs 2 false) }) rfl
  ((S2_ct z).symm ▸ gs2)
example (z : Fin 4 → ℝ) := C46_uk_updates (env := gsEnv) (U2 z) (u := { variogramModel := .gstools (gs 2 false) }) rfl gsU
example (z : Fin 4 → ℝ) := C46_ok3d_updates (env := gsEnv) (S3 z) (u := { variogramModel := .gstools (gs 3 false) }) rfl gs3
example (z : Fin 4 → ℝ) := C46_uk3d_updates (env := gsEnv) (U3 z) (u := { variogramModel := .gstools (gs 3 false) }) rfl gs3
example (x y z : Fin 4 → ℝ) := C46_ok_refuses_partial (env := gsEnv) x y z (args := { variogramModel := .gstools (gs 3 false) }) rfl
  (by decide) (fun h => by have := h.2.1; simp [gs] at this)
example (x y z : Fin 4 → ℝ) := C46_uk_refuses_partial (env := gsEnv) x y z (args := { variogramModel := .gstools (gs 2 true) }) rfl
  (by decide) (fun h => by have := h.2.2; simp [gs] at this)
example (x y z v : Fin 4 → ℝ) := C46_ok3d_refuses (env := gsEnv) x y z v (args := { variogramModel := .gstools (gs 2 false) }) rfl
  (fun h => by have := h.2; simp [gs] at this)
example (x y z v : Fin 4 → ℝ) := C46_uk3d_refuses (env := gsEnv) x y z v (args := { variogramModel := .gstools (gs 2 false) }) rfl
  (fun h => by have := h.2; simp [gs] at this)

/-! C49 -/
theorem sph_mono : ∀ d e, 0 ≤ d → d ≤ e → sph d ≤ sph e := by
  intro d e hd hde
  unfold sph
  split <;> split
  · nlinarith [mul_nonneg (sub_nonneg.2 hde) (sub_nonneg.2 (show d * d ≤ 4 by nlinarith)),
      mul_nonneg (sub_nonneg.2 hde) (sub_nonneg.2 (show e * e ≤ 4 by nlinarith)),
      mul_nonneg (sub_nonneg.2 hde) (sub_nonneg.2 (show d * e ≤ 4 by nlinarith))]
  · nlinarith [mul_nonneg (sub_nonneg.2 (show d ≤ 2 by assumption)) (sub_nonneg.2 (show d * d ≤ 4 by nlinarith)), sq_nonneg (d - 2)]
  · linarith
  · rfl
theorem sph_pos : ∀ d, 0 ≤ d → 0 ≤ sph d := by
  intro d hd
  have := sph_mono 0 d le_rfl hd
  have h0 : sph 0 = 1 := by norm_num [sph]
  linarith
example (z : Fin 4 → ℝ) := C49_bound_2d (S2_ok z) (S2_adm z fits_none) rfl (S2_sph z) S2_neg sph_pos rfl (r2 z) (j := 0) (q2 _ _) rfl
example (z : Fin 4 → ℝ) := C49_bound_3d (S3_ok z) stdEnv_knn fits_none rfl (S3_sph z) S3_neg sph_pos rfl (r3 z) (j := 0) (q3 _ _) rfl
example (z : Fin 4 → ℝ) := C49_window_3d (S3_ok z) stdEnv_knn fits_two (k := 2) rfl (S3_sph z) S3_neg sph_pos sph_mono (r3w z) (j := 0) (q3 "loop" _) rfl

/-! C48 -/
theorem good_window43' (l : List (ℝ × ℝ × ℝ)) : Good3 { pointsCall3 l "loop" with nClosest := some 3 } :=
  ⟨.inr (.inr ⟨rfl, by simp [pointsCall3]⟩), by intro k hk; cases hk; norm_num, by intro k hk; cases hk; norm_num, by simp [HasFloats3, pointsCall3], .inl rfl⟩
abbrev T3 : ℝ × ℝ × ℝ := (1 / 4, 1 / 8, 0)
theorem T3_ties : ∀ i i', ok3Distance A3 T3 (x4 i, y4 i, z4 i) = ok3Distance A3 T3 (x4 i', y4 i', z4 i') → i = i' := by
  intro i j hij
  have : ∀ q : ℝ × ℝ × ℝ, ok3Distance A3 T3 q = Real.sqrt ((1 / 4 - q.1) ^ 2 + (1 / 8 - q.2.1) ^ 2 + (0 - q.2.2) ^ 2) := by
    intro q
    show distance3 {} T3 q = _
    simp [distance3, rotX, rotY, rotZ, rad]
  rw [this, this, Real.sqrt_inj (by positivity) (by positivity)] at hij
  fin_cases i <;> fin_cases j <;> first | rfl | (exfalso; simp [x4, y4, z4] at hij; norm_num at hij)
example (z : Fin 4 → ℝ) := C48_window_3d (S3_ok z) (S3_sph z) rfl S3_neg stdEnv_knn fits_two (by intro k hk; cases hk; norm_num) (k := 2) (k' := 3) rfl rfl (by norm_num)
  (R3_ok z (good_window3 [T3])) (R3_ok z (good_window43' [T3])) (j := 0) (j' := 0) (q3 "loop" T3) (q3 "loop" T3) rfl rfl T3_ties

/-! C51 -/
example (z : Fin 4 → ℝ) := C51_disabled_ok (S2_ok z) rfl
example (z : Fin 4 → ℝ) := C51_points_uk (U2_ok z) (by simp [uany]) (U2_sph z)
example (z : Fin 4 → ℝ) := C51_statistics_uk (U2_ok z) (U2_sph z) (.inl rfl)
example (z : Fin 4 → ℝ) := C51_statistics_uk3d (U3_ok z) (U3_sph z) (.inl rfl)
end
end PyKrige.Demo
