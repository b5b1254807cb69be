import Verif.Examples.Use1
import Verif.Props.C27
import Verif.Props.C28
import Verif.Props.C40
import Verif.Props.C47Unique
import Verif.Props.C48
import Verif.Props.C49

/-!
Theorems C27, C28, C40, C47 – C49 applied to the four objects of `Objects.lean`.
-/

namespace PyKrige.Demo
noncomputable section
open Spec

/-- The spherical variogram with sill 3, range 2 and nugget 1. -/
def sph : ℝ → ℝ := fun d => if d ≤ 2 then (3 - 1) * (3 / 2 * (d / 2) - 1 / 2 * (d / 2) ^ 3) + 1 else 3
theorem sph_textbook : textbook "spherical" [3, 2, 1] = some sph := by
  unfold textbook sph
  simp
theorem S2_sph (z : Fin 4 → ℝ) : (S2 z).variogramFunction (S2 z).params = .ok sph :=
  C47_variogram_2d (S2_ok z) (m := "spherical") rfl (l := [3, 2, 1]) rfl sph_textbook
theorem S3_sph (z : Fin 4 → ℝ) : (S3 z).variogramFunction (S3 z).params = .ok sph :=
  C47_variogram_3d (S3_ok z) (m := "spherical") rfl (l := [3, 2, 1]) rfl sph_textbook
theorem U2_sph (z : Fin 4 → ℝ) : (U2 z).variogramFunction (U2 z).params = .ok sph :=
  C47_variogram_uk (U2_ok z) (m := "spherical") rfl (l := [3, 2, 1]) rfl sph_textbook
theorem U3_sph (z : Fin 4 → ℝ) : (U3 z).variogramFunction (U3 z).params = .ok sph :=
  C47_variogram_uk3d (U3_ok z) (m := "spherical") rfl (l := [3, 2, 1]) rfl sph_textbook

theorem sph_valid3 : Valid3 sph := by
  obtain ⟨hb, -, -, γ, hγ, hval, -⟩ := sph_valid.builtin
  obtain ⟨hev, -⟩ := chosen_evaluates hγ hb (OK.create_function (S2_ok 0) (m := "spherical") rfl)
  have := S2_sph 0
  rw [S2_params] at this
  rw [this] at hev
  cases hev
  exact hval

theorem S2_neg : CondNeg (semivar sph fun i i' => okDistance A2 (x4 i, y4 i) (x4 i', y4 i')) := by
  obtain ⟨e, he⟩ := okDistance_embed (args := A2) rfl
  exact sph_valid3.data he fun i => (x4 i, y4 i)
theorem S3_neg : CondNeg (semivar sph fun i i' => ok3Distance A3 (x4 i, y4 i, z4 i) (x4 i', y4 i', z4 i')) := by
  obtain ⟨e, he⟩ := distance3_embed (effAniso A3.variogramModel A3.aniso)
  exact sph_valid3.data he fun i => (x4 i, y4 i, z4 i)
theorem U2_neg : CondNeg (semivar sph fun i i' => ukDistance B2 (x4 i, y4 i) (x4 i', y4 i')) := by
  obtain ⟨e, he⟩ := anisoDist2_embed 1 0
  exact sph_valid3.data he fun i => (x4 i, y4 i)
theorem U3_neg : CondNeg (semivar sph fun i i' => uk3Distance B3 (x4 i, y4 i, z4 i) (x4 i', y4 i', z4 i')) := by
  obtain ⟨e, he⟩ := distance3_embed (effAniso B3.variogramModel B3.aniso)
  exact sph_valid3.data he fun i => (x4 i, y4 i, z4 i)

/-- Away from the data. -/
theorem clear_far {ι : Type} {exact : Bool} {γ : ℝ → ℝ} {d : ι → ℝ} (h : ∀ i, 1 / 2 ≤ d i) : Clear exact γ d :=
  fun _ i hi => absurd hi (not_le.mpr (lt_of_lt_of_le (by norm_num) (h i)))

/-- The middle of the data. -/
abbrev P2 : ℝ × ℝ := (1 / 2, 1 / 2)
abbrev P3 : ℝ × ℝ × ℝ := (1 / 2, 1 / 2, 1)

theorem awayP2 (i : Fin 4) : 1 / 2 ≤ anisoDist2 1 0 P2 (x4 i, y4 i) := by
  have : anisoDist2 1 0 P2 (x4 i, y4 i) = Real.sqrt ((1 / 2 - x4 i) ^ 2 + (1 / 2 - y4 i) ^ 2) := by
    simp [anisoDist2, rad]
  rw [this]
  apply Real.le_sqrt_of_sq_le
  fin_cases i <;> simp [x4, y4] <;> norm_num
theorem awayP3 (i : Fin 4) : 1 / 2 ≤ distance3 {} P3 (x4 i, y4 i, z4 i) := by
  have : distance3 {} P3 (x4 i, y4 i, z4 i) = Real.sqrt ((1 / 2 - x4 i) ^ 2 + (1 / 2 - y4 i) ^ 2 + (1 - z4 i) ^ 2) := by
    simp [distance3, rotX, rotY, rotZ, rad]
  rw [this]
  apply Real.le_sqrt_of_sq_le
  fin_cases i <;> simp [x4, y4, z4] <;> norm_num

theorem q2 (b : String) (p : ℝ × ℝ) : queryAt (pointsCall [p] b) 0 = some p := by simp [queryAt, pointsCall]
theorem q3 (b : String) (p : ℝ × ℝ × ℝ) : queryAt3 (pointsCall3 [p] b) 0 = some p := by simp [queryAt3, pointsCall3]
theorem clear2 : Clear true sph fun i => okDistance A2 P2 (x4 i, y4 i) := clear_far awayP2
theorem clear3 : Clear true sph fun i => ok3Distance A3 P3 (x4 i, y4 i, z4 i) := clear_far awayP3
theorem clearU : Clear true sph fun i => ukDistance B2 P2 (x4 i, y4 i) := clear_far awayP2
theorem clearU3 : Clear true sph fun i => uk3Distance B3 P3 (x4 i, y4 i, z4 i) := clear_far awayP3
theorem only2 {Q : ℝ × ℝ → Prop} (h : Q P2) (b : String) : ∀ p, queryAt (pointsCall [P2] b) 0 = some p → Q p := by
  intro p hp
  rw [q2] at hp
  cases hp
  exact h
theorem only3 {Q : ℝ × ℝ × ℝ → Prop} (h : Q P3) (b : String) : ∀ p, queryAt3 (pointsCall3 [P3] b) 0 = some p → Q p := by
  intro p hp
  rw [q3] at hp
  cases hp
  exact h
theorem nospec : "specified" ∉ B2.driftTerms := by simp [uany]
theorem nospec3 : "specified" ∉ B3.driftTerms := by simp [uany3]
theorem nofunc : "functional" ∉ B2.driftTerms := by simp [uany]
theorem nofunc3 : "functional" ∉ B3.driftTerms := by simp [uany3]

/-- One point, each class. -/
abbrev r2 (z : Fin 4 → ℝ) := R2_ok z (good_points [P2] (b := "C") (by simp))
abbrev r3 (z : Fin 4 → ℝ) := R3_ok z (good_points3 [P3] (b := "loop") (by simp))
abbrev r2w (z : Fin 4 → ℝ) := R2_ok z (good_window [P2] (b := "C") (by simp))
abbrev r3w (z : Fin 4 → ℝ) := R3_ok z (good_window3 [P3])
abbrev ru (z : Fin 4 → ℝ) := Q2_ok z (good_pointsU [P2] (b := "loop") (by simp))
abbrev ru3 (z : Fin 4 → ℝ) := Q3_ok z (good_pointsU3 [P3] (b := "loop") (by simp))

/-- The answers have values. -/
theorem val2 (z : Fin 4 → ℝ) : ∃ t, (R2 z (pointsCall [P2] "C")).z[0]? = some (some t) := by
  obtain ⟨-, ⟨w, μ, hw⟩, h⟩ := C47_unique_2d (S2_ok z) (S2_adm z fits_none) rfl rfl (S2_sph z) rfl (r2 z) (j := 0) (q2 _ _) rfl
  exact ⟨_, (h w μ hw).1⟩
theorem var2 (z : Fin 4 → ℝ) : ∃ t, (R2 z (pointsCall [P2] "C")).ss[0]? = some (some t) := by
  obtain ⟨-, ⟨w, μ, hw⟩, h⟩ := C47_unique_2d (S2_ok z) (S2_adm z fits_none) rfl rfl (S2_sph z) rfl (r2 z) (j := 0) (q2 _ _) rfl
  exact ⟨_, (h w μ hw).2⟩
theorem val3 (z : Fin 4 → ℝ) : ∃ t, (R3 z (pointsCall3 [P3] "loop")).z[0]? = some (some t) := by
  obtain ⟨-, ⟨w, μ, hw⟩, h⟩ := C47_unique_3d (S3_ok z) stdEnv_knn fits_none rfl rfl (S3_sph z) rfl (r3 z) (j := 0) (q3 _ _) rfl
  exact ⟨_, (h w μ hw).1⟩
theorem var3 (z : Fin 4 → ℝ) : ∃ t, (R3 z (pointsCall3 [P3] "loop")).ss[0]? = some (some t) := by
  obtain ⟨-, ⟨w, μ, hw⟩, h⟩ := C47_unique_3d (S3_ok z) stdEnv_knn fits_none rfl rfl (S3_sph z) rfl (r3 z) (j := 0) (q3 _ _) rfl
  exact ⟨_, (h w μ hw).2⟩
theorem val2w (z : Fin 4 → ℝ) : ∃ t, (R2 z { pointsCall [P2] "C" with nClosest := some 2 }).z[0]? = some (some t) := by
  obtain ⟨_, -, -, -, ⟨w, μ, hw⟩, h⟩ := C47_unique_window_2d (S2_ok z) (S2_adm z fits_two) (k := 2) rfl (S2_sph z) rfl (r2w z) (j := 0) (q2 "C" _) rfl
  exact ⟨_, (h w μ hw).1⟩
theorem var2w (z : Fin 4 → ℝ) : ∃ t, (R2 z { pointsCall [P2] "C" with nClosest := some 2 }).ss[0]? = some (some t) := by
  obtain ⟨_, -, -, -, ⟨w, μ, hw⟩, h⟩ := C47_unique_window_2d (S2_ok z) (S2_adm z fits_two) (k := 2) rfl (S2_sph z) rfl (r2w z) (j := 0) (q2 "C" _) rfl
  exact ⟨_, (h w μ hw).2⟩
theorem val3w (z : Fin 4 → ℝ) : ∃ t, (R3 z { pointsCall3 [P3] "loop" with nClosest := some 2 }).z[0]? = some (some t) := by
  obtain ⟨_, -, -, -, ⟨w, μ, hw⟩, h⟩ := C47_unique_window_3d (S3_ok z) stdEnv_knn fits_two (k := 2) rfl (S3_sph z) rfl (r3w z) (j := 0) (q3 "loop" _) rfl
  exact ⟨_, (h w μ hw).1⟩
theorem val_u (z : Fin 4 → ℝ) : ∃ t, (Q2 z { toExec := pointsCall [P2] "loop" }).z[0]? = some (some t) := by
  obtain ⟨_, _, _, -, -, -, ⟨w, ν, μ, hw⟩, h⟩ := C47_unique_uk (U2_ok z) rfl (fun h => absurd h nospec) (U2_sph z) rfl (ru z) (j := 0) (q2 _ _) rfl
  exact ⟨_, (h w ν μ hw).1⟩
theorem var_u (z : Fin 4 → ℝ) : ∃ t, (Q2 z { toExec := pointsCall [P2] "loop" }).ss[0]? = some (some t) := by
  obtain ⟨_, _, _, -, -, -, ⟨w, ν, μ, hw⟩, h⟩ := C47_unique_uk (U2_ok z) rfl (fun h => absurd h nospec) (U2_sph z) rfl (ru z) (j := 0) (q2 _ _) rfl
  exact ⟨_, (h w ν μ hw).2⟩
theorem val_u3 (z : Fin 4 → ℝ) : ∃ t, (Q3 z { toExec := pointsCall3 [P3] "loop" }).z[0]? = some (some t) := by
  obtain ⟨_, _, _, -, -, -, ⟨w, ν, μ, hw⟩, h⟩ := C47_unique_uk3d (U3_ok z) rfl (fun h => absurd h nospec3) (U3_sph z) rfl (ru3 z) (j := 0) (q3 _ _) rfl
  exact ⟨_, (h w ν μ hw).1⟩
theorem var_u3 (z : Fin 4 → ℝ) : ∃ t, (Q3 z { toExec := pointsCall3 [P3] "loop" }).ss[0]? = some (some t) := by
  obtain ⟨_, _, _, -, -, -, ⟨w, ν, μ, hw⟩, h⟩ := C47_unique_uk3d (U3_ok z) rfl (fun h => absurd h nospec3) (U3_sph z) rfl (ru3 z) (j := 0) (q3 _ _) rfl
  exact ⟨_, (h w ν μ hw).2⟩

/-! C27 -/
theorem point2 : CondNeg (withPoint (semivar sph fun i i' => okDistance A2 (x4 i, y4 i) (x4 i', y4 i'))
    (semivarTo true sph fun i => okDistance A2 P2 (x4 i, y4 i))) := by
  obtain ⟨e, he⟩ := okDistance_embed (args := A2) rfl
  exact sph_valid3.withPoint' he (fun i => (x4 i, y4 i)) P2 clear2
theorem pointU : CondNeg (withPoint (semivar sph fun i i' => ukDistance B2 (x4 i, y4 i) (x4 i', y4 i'))
    (semivarTo true sph fun i => ukDistance B2 P2 (x4 i, y4 i))) := by
  obtain ⟨e, he⟩ := anisoDist2_embed 1 0
  exact sph_valid3.withPoint' he (fun i => (x4 i, y4 i)) P2 clearU
theorem point3 : CondNeg (withPoint (semivar sph fun i i' => distance3 {} (x4 i, y4 i, z4 i) (x4 i', y4 i', z4 i'))
    (semivarTo true sph fun i => distance3 {} P3 (x4 i, y4 i, z4 i))) := by
  obtain ⟨e, he⟩ := distance3_embed {}
  exact sph_valid3.withPoint' he (fun i => (x4 i, y4 i, z4 i)) P3 clear3
example (z : Fin 4 → ℝ) := (var3 z).imp fun _ => C27_builtin_3d_partial (S3_ok z) stdEnv_knn fits_none rfl (S3_params z ▸ sph_valid)
  (S3_sph z) rfl (r3 z) (j := 0) (only3 clear3 _)
example (z : Fin 4 → ℝ) := (var_u z).imp fun _ => C27_builtin_uk_partial (U2_ok z) (fun h => absurd h nospec) rfl (U2_params z ▸ sph_valid)
  (U2_sph z) rfl (ru z) (j := 0) (.inl rfl) (only2 clearU _)
example (z : Fin 4 → ℝ) := (var_u3 z).imp fun _ => C27_builtin_uk3d_partial (U3_ok z) (fun h => absurd h nospec3) rfl
  (U3_params z ▸ sph_valid) (U3_sph z) rfl (ru3 z) (j := 0) (.inl rfl) (only3 clearU3 _)
example (z : Fin 4 → ℝ) := (var2 z).imp fun _ => C27_nonneg_2d (S2_ok z) (S2_adm z fits_none) (S2_sph z) rfl (r2 z) (j := 0) (only2 point2 _)
example (z : Fin 4 → ℝ) := (var2w z).imp fun _ => C27_nonneg_2d (S2_ok z) (S2_adm z fits_two) (S2_sph z) rfl (r2w z) (j := 0) (only2 point2 "C")
example (z : Fin 4 → ℝ) := (var3 z).imp fun _ => C27_nonneg_3d (S3_ok z) stdEnv_knn fits_none (S3_sph z) rfl (r3 z) (j := 0) (only3 point3 _)
example (z : Fin 4 → ℝ) := (var_u z).imp fun _ => C27_nonneg_uk (U2_ok z) (fun h => absurd h nospec) (U2_sph z) rfl (ru z) (j := 0) (.inl rfl)
  (only2 pointU _)
example (z : Fin 4 → ℝ) := (var_u3 z).imp fun _ => C27_nonneg_uk3d (U3_ok z) (fun h => absurd h nospec3) (U3_sph z) rfl (ru3 z) (j := 0)
  (.inl rfl) (only3 point3 _)
example := C27_negative_at_duplicate 1 one_pos ![1, 2]

/-! C28 -/
example (z : Fin 4 → ℝ) := C28_best_2d (S2_ok z) (S2_adm z fits_none) (S2_sph z) rfl S2_neg (r2 z) (j := 0) (q2 _ _) rfl (.inl rfl)
example (z : Fin 4 → ℝ) := C28_best_2d (S2_ok z) (S2_adm z fits_two) (S2_sph z) rfl S2_neg (r2w z) (j := 0) (q2 "C" _) rfl (.inl rfl)
example (z : Fin 4 → ℝ) := C28_best_3d (S3_ok z) stdEnv_knn fits_none (S3_sph z) rfl S3_neg (r3 z) (j := 0) (q3 _ _) rfl (.inl rfl)
example (z : Fin 4 → ℝ) := C28_best_uk (U2_ok z) (U2_sph z) rfl (fun h => absurd h nospec) U2_neg (ru z) (j := 0) (q2 _ _) rfl (.inl rfl)
example (z : Fin 4 → ℝ) := C28_best_uk3d (U3_ok z) (U3_sph z) rfl (fun h => absurd h nospec3) U3_neg (ru3 z) (j := 0) (q3 _ _) rfl (.inl rfl)

/-! C47 -/
example (z : Fin 4 → ℝ) := C47_unique_2d (S2_ok z) (S2_adm z fits_none) rfl rfl (S2_sph z) rfl (r2 z) (j := 0) (q2 _ _) rfl
example (z : Fin 4 → ℝ) := C47_unique_3d (S3_ok z) stdEnv_knn fits_none rfl rfl (S3_sph z) rfl (r3 z) (j := 0) (q3 _ _) rfl
example (z : Fin 4 → ℝ) := C47_unique_uk (U2_ok z) rfl (fun h => absurd h nospec) (U2_sph z) rfl (ru z) (j := 0) (q2 _ _) rfl
example (z : Fin 4 → ℝ) := C47_unique_uk3d (U3_ok z) rfl (fun h => absurd h nospec3) (U3_sph z) rfl (ru3 z) (j := 0) (q3 _ _) rfl
example (z : Fin 4 → ℝ) := C47_unique_window_2d (S2_ok z) (S2_adm z fits_two) (k := 2) rfl (S2_sph z) rfl (r2w z) (j := 0) (q2 "C" _) rfl
example (z : Fin 4 → ℝ) := C47_unique_window_3d (S3_ok z) stdEnv_knn fits_two (k := 2) rfl (S3_sph z) rfl (r3w z) (j := 0) (q3 "loop" _) rfl
example (z : Fin 4 → ℝ) := (val2 z).imp fun _ => C47_system_2d (S2_ok z) (S2_adm z fits_none) rfl rfl (r2 z) (j := 0)
example (z : Fin 4 → ℝ) := (val3 z).imp fun _ => C47_system_3d (S3_ok z) stdEnv_knn fits_none rfl rfl (r3 z) (j := 0)
example (z : Fin 4 → ℝ) := (val_u z).imp fun _ => C47_system_uk (U2_ok z) rfl (fun h => absurd h nospec) (ru z) (j := 0)
example (z : Fin 4 → ℝ) := (val_u3 z).imp fun _ => C47_system_uk3d (U3_ok z) rfl (fun h => absurd h nospec3) (ru3 z) (j := 0)
example (z : Fin 4 → ℝ) := (val2w z).imp fun _ => C47_window_2d (S2_ok z) (S2_adm z fits_two) (k := 2) rfl (r2w z) (j := 0)
example (z : Fin 4 → ℝ) := (val3w z).imp fun _ => C47_window_3d (S3_ok z) stdEnv_knn fits_two (k := 2) rfl (r3w z) (j := 0)
example (z : Fin 4 → ℝ) := C47_variogram_2d (S2_ok z) (m := "spherical") rfl (l := [3, 2, 1]) rfl sph_textbook
example (z : Fin 4 → ℝ) := C47_variogram_3d (S3_ok z) (m := "spherical") rfl (l := [3, 2, 1]) rfl sph_textbook
example (z : Fin 4 → ℝ) := C47_variogram_uk (U2_ok z) (m := "spherical") rfl (l := [3, 2, 1]) rfl sph_textbook
example (z : Fin 4 → ℝ) := C47_variogram_uk3d (U3_ok z) (m := "spherical") rfl (l := [3, 2, 1]) rfl sph_textbook
end
end PyKrige.Demo
