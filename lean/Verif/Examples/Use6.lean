import Verif.Examples.Flat
import Verif.Examples.Use5
import Verif.Props.C50

/-!
Four more objects, with the pure nugget variogram (linear, slope 0, nugget 1), and theorem C50 applied to them.
-/

namespace PyKrige.Demo
noncomputable section
open Spec

def Good2f (ea : ExecArgs) : Prop :=
  WellPosed ea ∧ WindowOk ea.nClosest ∧ WindowFits 4 ea.nClosest ∧ HasFloats ea ∧
    Supports stdEnv (any "linear" [0, 1]) ea.nClosest ea.backend

abbrev fA2 : OKArgs := any "linear" [0, 1]
abbrev fA3 : OK3DArgs := any3 "linear" [0, 1]
abbrev fB2 : UKArgs := uany "linear" [0, 1]
abbrev fB3 : UK3DArgs := uany3 "linear" [0, 1]

def F2 (z : Fin 4 → ℝ) : OK 4 := Classical.choose (nug_ok (n := 4) (x := x4) (y := y4) (by norm_num) z flat_valid flat_nugget)
def F3 (v : Fin 4 → ℝ) : OK3D 4 := Classical.choose (nug3_ok (n := 4) (x := x4) (y := y4) (z := z4) (by norm_num) v flat_valid flat_nugget)
def G2 (z : Fin 4 → ℝ) : UK 4 := Classical.choose (unug_ok (n := 4) (x := x4) (y := y4) (by norm_num) z flat_valid flat_nugget plane4)
def G3 (v : Fin 4 → ℝ) : UK3D 4 := Classical.choose (unug3_ok (n := 4) (x := x4) (y := y4) (z := z4) (by norm_num) v flat_valid flat_nugget space4)

theorem F2_ok (z : Fin 4 → ℝ) : OK.create stdEnv x4 y4 z fA2 = .ok (F2 z) :=
  (Classical.choose_spec (nug_ok (n := 4) (x := x4) (y := y4) (by norm_num) z flat_valid flat_nugget)).1
theorem F3_ok (v : Fin 4 → ℝ) : OK3D.create stdEnv x4 y4 z4 v fA3 = .ok (F3 v) :=
  (Classical.choose_spec (nug3_ok (n := 4) (x := x4) (y := y4) (z := z4) (by norm_num) v flat_valid flat_nugget)).1
theorem G2_ok (z : Fin 4 → ℝ) : UK.create stdEnv x4 y4 z fB2 = .ok (G2 z) :=
  (Classical.choose_spec (unug_ok (n := 4) (x := x4) (y := y4) (by norm_num) z flat_valid flat_nugget plane4)).1
theorem G3_ok (v : Fin 4 → ℝ) : UK3D.create stdEnv x4 y4 z4 v fB3 = .ok (G3 v) :=
  (Classical.choose_spec (unug3_ok (n := 4) (x := x4) (y := y4) (z := z4) (by norm_num) v flat_valid flat_nugget space4)).1

theorem F2_params (z : Fin 4 → ℝ) : (F2 z).params = listMeaning "linear" [0, 1] :=
  (Classical.choose_spec (nug_ok (n := 4) (x := x4) (y := y4) (by norm_num) z flat_valid flat_nugget)).2.1
theorem F3_params (z : Fin 4 → ℝ) : (F3 z).params = listMeaning "linear" [0, 1] :=
  (Classical.choose_spec (nug3_ok (n := 4) (x := x4) (y := y4) (z := z4) (by norm_num) z flat_valid flat_nugget)).2.1
theorem G2_params (z : Fin 4 → ℝ) : (G2 z).params = listMeaning "linear" [0, 1] :=
  (Classical.choose_spec (unug_ok (n := 4) (x := x4) (y := y4) (by norm_num) z flat_valid flat_nugget plane4)).2.1
theorem G3_params (z : Fin 4 → ℝ) : (G3 z).params = listMeaning "linear" [0, 1] :=
  (Classical.choose_spec (unug3_ok (n := 4) (x := x4) (y := y4) (z := z4) (by norm_num) z flat_valid flat_nugget space4)).2.1

theorem F2_adm (z : Fin 4 → ℝ) {nc : Option ℤ} (h : WindowFits 4 nc) : Admissible stdEnv fA2 (F2 z) nc :=
  (Classical.choose_spec (nug_ok (n := 4) (x := x4) (y := y4) (by norm_num) z flat_valid flat_nugget)).2.2.1 nc h

def fR2 (z : Fin 4 → ℝ) (ea : ExecArgs) : ExecResult := answer ((F2 z).execute stdEnv ea)
def fR3 (v : Fin 4 → ℝ) (ea : ExecArgs3) : ExecResult := answer ((F3 v).execute stdEnv ea)
def fQ2 (z : Fin 4 → ℝ) (ea : UKExecArgs) : ExecResult := answer ((G2 z).execute ea)
def fQ3 (v : Fin 4 → ℝ) (ea : UK3DExecArgs) : ExecResult := answer ((G3 v).execute ea)

theorem fR2_ok (z : Fin 4 → ℝ) {ea : ExecArgs} (h : Good2f ea) : (F2 z).execute stdEnv ea = .ok (fR2 z ea) := by
  obtain ⟨r, hr⟩ := (Classical.choose_spec (nug_ok (n := 4) (x := x4) (y := y4) (by norm_num) z flat_valid flat_nugget)).2.2.2 ea h.1 h.2.1 h.2.2.1
    h.2.2.2.1 h.2.2.2.2
  have hr : (F2 z).execute stdEnv ea = .ok r := hr
  rw [fR2, hr]
  rfl

theorem fR3_ok (v : Fin 4 → ℝ) {ea : ExecArgs3} (h : Good3 ea) : (F3 v).execute stdEnv ea = .ok (fR3 v ea) := by
  obtain ⟨r, hr⟩ := (Classical.choose_spec (nug3_ok (n := 4) (x := x4) (y := y4) (z := z4) (by norm_num) v flat_valid flat_nugget)).2.2 ea h.1 h.2.1 h.2.2.1
    h.2.2.2.1 h.2.2.2.2
  have hr : (F3 v).execute stdEnv ea = .ok r := hr
  rw [fR3, hr]
  rfl

theorem fQ2_ok (z : Fin 4 → ℝ) {ea : UKExecArgs} (h : GoodU ea) : (G2 z).execute ea = .ok (fQ2 z ea) := by
  obtain ⟨r, hr⟩ := (Classical.choose_spec (unug_ok (n := 4) (x := x4) (y := y4) (by norm_num) z flat_valid flat_nugget plane4)).2.2.2 ea h.1 h.2.1 h.2.2
  have hr : (G2 z).execute ea = .ok r := hr
  rw [fQ2, hr]
  rfl

theorem fQ3_ok (v : Fin 4 → ℝ) {ea : UK3DExecArgs} (h : GoodU3 ea) : (G3 v).execute ea = .ok (fQ3 v ea) := by
  obtain ⟨r, hr⟩ := (Classical.choose_spec (unug3_ok (n := 4) (x := x4) (y := y4) (z := z4) (by norm_num) v flat_valid flat_nugget space4)).2.2.2 ea h.1 h.2.1 h.2.2
  have hr : (G3 v).execute ea = .ok r := hr
  rw [fQ3, hr]
  rfl


theorem flat_textbook : textbook "linear" [0, 1] = some fun _ => 1 := by
  unfold textbook
  simp
theorem F2_one (z : Fin 4 → ℝ) : (F2 z).variogramFunction (F2 z).params = .ok fun _ => 1 :=
  C47_variogram_2d (F2_ok z) (m := "linear") rfl (l := [0, 1]) rfl flat_textbook
theorem F3_one (z : Fin 4 → ℝ) : (F3 z).variogramFunction (F3 z).params = .ok fun _ => 1 :=
  C47_variogram_3d (F3_ok z) (m := "linear") rfl (l := [0, 1]) rfl flat_textbook
theorem G2_one (z : Fin 4 → ℝ) : (G2 z).variogramFunction (G2 z).params = .ok fun _ => 1 :=
  C47_variogram_uk (G2_ok z) (m := "linear") rfl (l := [0, 1]) rfl flat_textbook
theorem G3_one (z : Fin 4 → ℝ) : (G3 z).variogramFunction (G3 z).params = .ok fun _ => 1 :=
  C47_variogram_uk3d (G3_ok z) (m := "linear") rfl (l := [0, 1]) rfl flat_textbook

theorem f2w (z : Fin 4 → ℝ) : (F2 z).execute stdEnv { pointsCall [P2] "C" with nClosest := some 2 } = .ok (fR2 z { pointsCall [P2] "C" with nClosest := some 2 }) :=
  fR2_ok z ⟨.inr (.inr ⟨rfl, by simp [pointsCall]⟩), win_two, fits_two, by simp [HasFloats, pointsCall],
    .inr (.inr ⟨rfl, .inr ⟨⟨"linear", by simp [compiledModels], rfl⟩, .inr rfl⟩⟩)⟩
abbrev f3 (z : Fin 4 → ℝ) := fR3_ok z (good_points3 [P3] (b := "loop") (by simp))
abbrev f3w (z : Fin 4 → ℝ) := fR3_ok z (good_window3 [P3])
abbrev fu (z : Fin 4 → ℝ) := fQ2_ok z (good_pointsU [P2] (b := "loop") (by simp))
abbrev fu3 (z : Fin 4 → ℝ) := fQ3_ok z (good_pointsU3 [P3] (b := "loop") (by simp))

theorem farA {d : ℝ} (h : 1 / 2 ≤ d) : 1 / 10 ^ 10 < d := lt_of_lt_of_le (by norm_num) h

theorem fval2w (z : Fin 4 → ℝ) : ∃ t, (fR2 z { pointsCall [P2] "C" with nClosest := some 2 }).z[0]? = some (some t) := by
  obtain ⟨_, -, -, -, ⟨w, μ, hw⟩, h⟩ := C47_unique_window_2d (F2_ok z) (F2_adm z fits_two) (k := 2) rfl (F2_one z) rfl (f2w z) (j := 0) (q2 "C" _) rfl
  exact ⟨_, (h w μ hw).1⟩
theorem fval3w (z : Fin 4 → ℝ) : ∃ t, (fR3 z { pointsCall3 [P3] "loop" with nClosest := some 2 }).z[0]? = some (some t) := by
  obtain ⟨_, -, -, -, ⟨w, μ, hw⟩, h⟩ := C47_unique_window_3d (F3_ok z) stdEnv_knn fits_two (k := 2) rfl (F3_one z) rfl (f3w z) (j := 0) (q3 "loop" _) rfl
  exact ⟨_, (h w μ hw).1⟩
theorem fval3 (z : Fin 4 → ℝ) : ∃ t, (fR3 z (pointsCall3 [P3] "loop")).z[0]? = some (some t) := by
  obtain ⟨-, ⟨w, μ, hw⟩, h⟩ := C47_unique_3d (F3_ok z) stdEnv_knn fits_none rfl rfl (F3_one z) rfl (f3 z) (j := 0) (q3 _ _) rfl
  exact ⟨_, (h w μ hw).1⟩
theorem fval_u (z : Fin 4 → ℝ) : ∃ t, (fQ2 z { toExec := pointsCall [P2] "loop" }).z[0]? = some (some t) := by
  obtain ⟨_, _, _, -, -, -, ⟨w, ν, μ, hw⟩, h⟩ := C47_unique_uk (G2_ok z) rfl (fun h => absurd h nospec) (G2_one z) rfl (fu z) (j := 0) (q2 _ _) rfl
  exact ⟨_, (h w ν μ hw).1⟩
theorem fval_u3 (z : Fin 4 → ℝ) : ∃ t, (fQ3 z { toExec := pointsCall3 [P3] "loop" }).z[0]? = some (some t) := by
  obtain ⟨_, _, _, -, -, -, ⟨w, ν, μ, hw⟩, h⟩ := C47_unique_uk3d (G3_ok z) rfl (fun h => absurd h nospec3) (G3_one z) rfl (fu3 z) (j := 0) (q3 _ _) rfl
  exact ⟨_, (h w ν μ hw).1⟩

example (z : Fin 4 → ℝ) := (fval2w z).imp fun _ => C50_window_2d (F2_ok z) one_ne_zero (F2_one z) (F2_adm z fits_two) (k := 2) rfl (f2w z) (j := 0) (q2 "C" _)
  (.inr fun i => farA (awayP2 i))
example (z : Fin 4 → ℝ) := (fval3w z).imp fun _ => C50_window_3d (F3_ok z) one_ne_zero (F3_one z) stdEnv_knn fits_two (k := 2) rfl (f3w z) (j := 0) (q3 "loop" _)
  (.inr fun i => farA (awayP3 i))
example (z : Fin 4 → ℝ) := (fval3 z).imp fun _ => C50_mean_3d (F3_ok z) one_ne_zero (F3_one z) stdEnv_knn fits_none rfl rfl (f3 z) (j := 0) (q3 _ _)
  (.inr fun i => farA (awayP3 i))
example (z : Fin 4 → ℝ) := (fval_u z).imp fun _ => C50_trend_uk (G2_ok z) one_ne_zero (G2_one z) rfl (fun h => absurd h nospec) (fu z) (j := 0) (q2 _ _)
  (.inr fun i => farA (awayP2 i))
example (z : Fin 4 → ℝ) := (fval_u3 z).imp fun _ => C50_trend_uk3d (G3_ok z) one_ne_zero (G3_one z) rfl (fun h => absurd h nospec3) (fu3 z) (j := 0) (q3 _ _)
  (.inr fun i => farA (awayP3 i))
end
end PyKrige.Demo
