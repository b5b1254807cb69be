import Verif.Examples.Use6
import Verif.Props.C39
import Verif.Props.C56
import Verif.Props.C60
import Verif.Props.C63
import Verif.Props.C66
import Verif.Props.C70

/-!
Objects with the linear variogram without nugget, in space and on a line; theorems C39, C56, C60, C63, C66, C70 applied.
-/

set_option linter.unusedSectionVars false

namespace PyKrige.Demo
noncomputable section
open Spec

/-! Four data, linear variogram with slope 1. -/
abbrev nA2 : OKArgs := any "linear" [1, 0]
abbrev nA3 : OK3DArgs := any3 "linear" [1, 0]
def N2 (z : Fin 4 → ℝ) : OK 4 := Classical.choose (any_ok (n := 4) (x := x4) (y := y4) (by norm_num) z lin_valid lin_grows inj4)
theorem N2_ok (z : Fin 4 → ℝ) : OK.create stdEnv x4 y4 z nA2 = .ok (N2 z) := (Classical.choose_spec (any_ok (n := 4) (x := x4) (y := y4) (by norm_num) z lin_valid lin_grows inj4)).1
theorem N2_params (z : Fin 4 → ℝ) : (N2 z).params = listMeaning "linear" [1, 0] := (Classical.choose_spec (any_ok (n := 4) (x := x4) (y := y4) (by norm_num) z lin_valid lin_grows inj4)).2.1
theorem N2_adm (z : Fin 4 → ℝ) {nc : Option ℤ} (h : WindowFits 4 nc) : Admissible stdEnv nA2 (N2 z) nc := (Classical.choose_spec (any_ok (n := 4) (x := x4) (y := y4) (by norm_num) z lin_valid lin_grows inj4)).2.2.1 nc h
def N3 (z : Fin 4 → ℝ) : OK3D 4 := Classical.choose (any3_ok (n := 4) (x := x4) (y := y4) (z := z4) (by norm_num) z lin_valid lin_grows inj4')
theorem N3_ok (z : Fin 4 → ℝ) : OK3D.create stdEnv x4 y4 z4 z nA3 = .ok (N3 z) := (Classical.choose_spec (any3_ok (n := 4) (x := x4) (y := y4) (z := z4) (by norm_num) z lin_valid lin_grows inj4')).1
theorem N3_params (z : Fin 4 → ℝ) : (N3 z).params = listMeaning "linear" [1, 0] := (Classical.choose_spec (any3_ok (n := 4) (x := x4) (y := y4) (z := z4) (by norm_num) z lin_valid lin_grows inj4')).2.1
def nR2 (z : Fin 4 → ℝ) (ea : ExecArgs) : ExecResult := answer ((N2 z).execute stdEnv ea)
def nR3 (z : Fin 4 → ℝ) (ea : ExecArgs3) : ExecResult := answer ((N3 z).execute stdEnv ea)
theorem nR2_ok (z : Fin 4 → ℝ) {ea : ExecArgs} (h1 : WellPosed ea) (h2 : WindowOk ea.nClosest) (h3 : WindowFits 4 ea.nClosest) (h4 : HasFloats ea)
    (h5 : Supports stdEnv nA2 ea.nClosest ea.backend) : (N2 z).execute stdEnv ea = .ok (nR2 z ea) := by
  obtain ⟨r, hr⟩ := (Classical.choose_spec (any_ok (n := 4) (x := x4) (y := y4) (by norm_num) z lin_valid lin_grows inj4)).2.2.2 ea h1 h2 h3 h4 h5
  have hr : (N2 z).execute stdEnv ea = .ok r := hr
  rw [nR2, hr]
  rfl
theorem nR3_ok (z : Fin 4 → ℝ) {ea : ExecArgs3} (h1 : WellPosed3 ea) (h2 : WindowOk ea.nClosest) (h3 : WindowFits 4 ea.nClosest) (h4 : HasFloats3 ea)
    (h5 : ea.backend = "loop" ∨ (ea.nClosest = none ∧ ea.backend = "vectorized")) : (N3 z).execute stdEnv ea = .ok (nR3 z ea) := by
  obtain ⟨r, hr⟩ := (Classical.choose_spec (any3_ok (n := 4) (x := x4) (y := y4) (z := z4) (by norm_num) z lin_valid lin_grows inj4')).2.2 ea h1 h2 h3 h4 h5
  have hr : (N3 z).execute stdEnv ea = .ok r := hr
  rw [nR3, hr]
  rfl
abbrev nB2 : UKArgs := uany "linear" [1, 0]
abbrev nB3 : UK3DArgs := uany3 "linear" [1, 0]
def V2 (z : Fin 4 → ℝ) : UK 4 := Classical.choose (uany_ok (n := 4) (x := x4) (y := y4) (by norm_num) z lin_valid lin_grows inj4 plane4)
theorem V2_ok (z : Fin 4 → ℝ) : UK.create stdEnv x4 y4 z nB2 = .ok (V2 z) := (Classical.choose_spec (uany_ok (n := 4) (x := x4) (y := y4) (by norm_num) z lin_valid lin_grows inj4 plane4)).1
def V3 (z : Fin 4 → ℝ) : UK3D 4 := Classical.choose (uany3_ok (n := 4) (x := x4) (y := y4) (z := z4) (by norm_num) z lin_valid lin_grows inj4' space4)
theorem V3_ok (z : Fin 4 → ℝ) : UK3D.create stdEnv x4 y4 z4 z nB3 = .ok (V3 z) := (Classical.choose_spec (uany3_ok (n := 4) (x := x4) (y := y4) (z := z4) (by norm_num) z lin_valid lin_grows inj4' space4)).1
def nQ2 (z : Fin 4 → ℝ) (ea : UKExecArgs) : ExecResult := answer ((V2 z).execute ea)
def nQ3 (z : Fin 4 → ℝ) (ea : UK3DExecArgs) : ExecResult := answer ((V3 z).execute ea)
theorem nQ2_ok (z : Fin 4 → ℝ) {ea : UKExecArgs} (h : GoodU ea) : (V2 z).execute ea = .ok (nQ2 z ea) := by
  obtain ⟨r, hr⟩ := (Classical.choose_spec (uany_ok (n := 4) (x := x4) (y := y4) (by norm_num) z lin_valid lin_grows inj4 plane4)).2.2.2 ea h.1 h.2.1 h.2.2
  have hr : (V2 z).execute ea = .ok r := hr
  rw [nQ2, hr]
  rfl
theorem nQ3_ok (z : Fin 4 → ℝ) {ea : UK3DExecArgs} (h : GoodU3 ea) : (V3 z).execute ea = .ok (nQ3 z ea) := by
  obtain ⟨r, hr⟩ := (Classical.choose_spec (uany3_ok (n := 4) (x := x4) (y := y4) (z := z4) (by norm_num) z lin_valid lin_grows inj4' space4)).2.2.2 ea h.1 h.2.1 h.2.2
  have hr : (V3 z).execute ea = .ok r := hr
  rw [nQ3, hr]
  rfl

/-! Three data on a line, linear variogram with slope 2. -/
def xl : Fin 3 → ℝ := ![0, 1, 3]
def ol : Fin 3 → ℝ := ![0, 0, 0]
theorem injl : Function.Injective fun i => (xl i, ol i) := by
  intro i j h
  fin_cases i <;> fin_cases j <;> first | rfl | (exfalso; simp [xl, ol] at h)
theorem injl' : Function.Injective fun i => (xl i, ol i, ol i) := by
  intro i j h
  fin_cases i <;> fin_cases j <;> first | rfl | (exfalso; simp [xl, ol] at h)
theorem lin2_valid : ValidModel "linear" (listMeaning "linear" [2, 0]) := .inl ⟨2, 0, rfl, rfl, by norm_num, le_refl _⟩
theorem lin2_grows : Growing (listMeaning "linear" [2, 0]) := ⟨2, [0], rfl, by norm_num⟩
abbrev wA2 : OKArgs := any "linear" [2, 0]
abbrev wA3 : OK3DArgs := any3 "linear" [2, 0]
def W2 (z : Fin 3 → ℝ) : OK 3 := Classical.choose (any_ok (n := 3) (x := xl) (y := ol) (by norm_num) z lin2_valid lin2_grows injl)
theorem W2_ok (z : Fin 3 → ℝ) : OK.create stdEnv xl ol z wA2 = .ok (W2 z) := (Classical.choose_spec (any_ok (n := 3) (x := xl) (y := ol) (by norm_num) z lin2_valid lin2_grows injl)).1
theorem W2_params (z : Fin 3 → ℝ) : (W2 z).params = listMeaning "linear" [2, 0] := (Classical.choose_spec (any_ok (n := 3) (x := xl) (y := ol) (by norm_num) z lin2_valid lin2_grows injl)).2.1
theorem W2_adm (z : Fin 3 → ℝ) {nc : Option ℤ} (h : WindowFits 3 nc) : Admissible stdEnv wA2 (W2 z) nc := (Classical.choose_spec (any_ok (n := 3) (x := xl) (y := ol) (by norm_num) z lin2_valid lin2_grows injl)).2.2.1 nc h
def W3 (z : Fin 3 → ℝ) : OK3D 3 := Classical.choose (any3_ok (n := 3) (x := xl) (y := ol) (z := ol) (by norm_num) z lin2_valid lin2_grows injl')
theorem W3_ok (z : Fin 3 → ℝ) : OK3D.create stdEnv xl ol ol z wA3 = .ok (W3 z) := (Classical.choose_spec (any3_ok (n := 3) (x := xl) (y := ol) (z := ol) (by norm_num) z lin2_valid lin2_grows injl')).1
theorem W3_params (z : Fin 3 → ℝ) : (W3 z).params = listMeaning "linear" [2, 0] := (Classical.choose_spec (any3_ok (n := 3) (x := xl) (y := ol) (z := ol) (by norm_num) z lin2_valid lin2_grows injl')).2.1
def wR2 (z : Fin 3 → ℝ) (ea : ExecArgs) : ExecResult := answer ((W2 z).execute stdEnv ea)
def wR3 (z : Fin 3 → ℝ) (ea : ExecArgs3) : ExecResult := answer ((W3 z).execute stdEnv ea)
theorem wR2_ok (z : Fin 3 → ℝ) {ea : ExecArgs} (h1 : WellPosed ea) (h2 : WindowOk ea.nClosest) (h3 : WindowFits 3 ea.nClosest) (h4 : HasFloats ea)
    (h5 : Supports stdEnv wA2 ea.nClosest ea.backend) : (W2 z).execute stdEnv ea = .ok (wR2 z ea) := by
  obtain ⟨r, hr⟩ := (Classical.choose_spec (any_ok (n := 3) (x := xl) (y := ol) (by norm_num) z lin2_valid lin2_grows injl)).2.2.2 ea h1 h2 h3 h4 h5
  have hr : (W2 z).execute stdEnv ea = .ok r := hr
  rw [wR2, hr]
  rfl
theorem wR3_ok (z : Fin 3 → ℝ) {ea : ExecArgs3} (h1 : WellPosed3 ea) (h2 : WindowOk ea.nClosest) (h3 : WindowFits 3 ea.nClosest) (h4 : HasFloats3 ea)
    (h5 : ea.backend = "loop" ∨ (ea.nClosest = none ∧ ea.backend = "vectorized")) : (W3 z).execute stdEnv ea = .ok (wR3 z ea) := by
  obtain ⟨r, hr⟩ := (Classical.choose_spec (any3_ok (n := 3) (x := xl) (y := ol) (z := ol) (by norm_num) z lin2_valid lin2_grows injl')).2.2 ea h1 h2 h3 h4 h5
  have hr : (W3 z).execute stdEnv ea = .ok r := hr
  rw [wR3, hr]
  rfl
theorem N2_lin (z : Fin 4 → ℝ) : (N2 z).variogramFunction (N2 z).params = .ok fun d => 1 * d + 0 :=
  C47_variogram_2d (N2_ok z) (m := "linear") rfl (l := [1, 0]) rfl (by unfold textbook; simp)

/-! C63 -/
theorem sph_levels : LevelsOff sph (2 + 1) :=
  C63_sill (m := "spherical") (range_ := 2) (by simp) (by norm_num) (by have := sph_builtin; simpa [listMeaning, show (3 : ℝ) - 1 = 2 by norm_num] using this)
example (z : Fin 4 → ℝ) := C63_far_2d (S2_ok z) rfl (S2_sph z) rfl sph_levels
example (z : Fin 4 → ℝ) := C63_far_3d (S3_ok z) rfl (S3_sph z) rfl sph_levels
example (z : Fin 4 → ℝ) := C63_far_uk (U2_ok z) rfl (U2_sph z) rfl sph_levels
example (z : Fin 4 → ℝ) := C63_far_uk3d (U3_ok z) rfl (U3_sph z) rfl sph_levels

/-! C66 -/
example (x y z v : Fin 4 → ℝ) := C66_equal_3d stdEnv x y z v A3
example (x y z : Fin 4 → ℝ) := C66_equal_uk stdEnv x y z B2
example (x y z v : Fin 4 → ℝ) := C66_equal_uk3d stdEnv x y z v B3
example (x y v : Fin 4 → ℝ) (z : Fin 5 → ℝ) := C66_unequal_3d stdEnv ⟨4, x⟩ ⟨4, y⟩ ⟨5, z⟩ ⟨4, v⟩ A3 (by simp [any3]) (by simp)
example (x y : Fin 4 → ℝ) (z : Fin 5 → ℝ) := C66_unequal_uk stdEnv ⟨4, x⟩ ⟨4, y⟩ ⟨5, z⟩ B2 (by simp [uany]) (by simp)
example := C66_zero_lags stdEnv ![1, 2, 3]

/-! C56 -/
example (z : Fin 4 → ℝ) := C56_independent_uk (U2_ok z) rfl (ru z)
example (z : Fin 4 → ℝ) := C56_independent_uk3d (U3_ok z) rfl (ru3 z)
example (z : Fin 2 → ℝ) {s : UK 2} (h : UK.create stdEnv ![0, 1] ![0, 0] z B2 = .ok s) (ea : UKExecArgs) := C56_few_uk h rfl (by simp [termCount2, uany]) ea
example (z : Fin 3 → ℝ) {s : UK3D 3} (h : UK3D.create stdEnv ![0, 1, 0] ![0, 0, 1] ![0, 0, 0] z B3 = .ok s) (ea : UK3DExecArgs) :=
  C56_few_uk3d h rfl (by simp [termCount3, uany3]) ea

/-! C39 -/
example (z : Fin 4 → ℝ) := C39_same_3d (S3_ok z) rfl
example (z : Fin 4 → ℝ) := C39_same_uk (U2_ok z) rfl
example (z : Fin 4 → ℝ) := C39_same_uk3d (U3_ok z) rfl
example := C39_pinv_not_unbiased

/-! C60 -/
theorem line3 : ∀ i, (xl i, ol i, ol i) = ((0, 0, 0) : ℝ × ℝ × ℝ) + xl i • ((1, 0, 0) : ℝ × ℝ × ℝ) := by
  intro i
  fin_cases i <;> simp [xl, ol]
example := C60_line_3d (args := wA3) line3 (p := (2, 0, 0)) (τ := 2) (by simp)
theorem line2 : ∀ i, (xl i, ol i) = ((0, 0) : ℝ × ℝ) + xl i • ((1, 0) : ℝ × ℝ) := by
  intro i
  fin_cases i <;> simp [xl, ol]
theorem away_l (i : Fin 3) : 1 / 10 ^ 10 < anisoDist2 1 0 (2, 0) (xl i, ol i) := by
  have : anisoDist2 1 0 (2, 0) (xl i, ol i) = Real.sqrt ((2 - xl i) ^ 2 + (0 - ol i) ^ 2) := by
    simp [anisoDist2, rad]
  rw [this, Real.lt_sqrt (by norm_num)]
  fin_cases i <;> norm_num [xl, ol]
theorem away_l3 (i : Fin 3) : 1 / 10 ^ 10 < distance3 {} (2, 0, 0) (xl i, ol i, ol i) := by
  have : distance3 {} (2, 0, 0) (xl i, ol i, ol i) = Real.sqrt ((2 - xl i) ^ 2 + (0 - ol i) ^ 2 + (0 - ol i) ^ 2) := by
    simp [distance3, rotX, rotY, rotZ, rad]
  rw [this, Real.lt_sqrt (by norm_num)]
  fin_cases i <;> norm_num [xl, ol]

theorem sup_w (k : Option ℤ) : Supports stdEnv wA2 k "C" :=
  .inr (.inr ⟨rfl, .inr ⟨⟨"linear", by simp [compiledModels], rfl⟩, .inr rfl⟩⟩)
theorem fits_two3 : WindowFits 3 (some 2) := by intro k hk; cases hk; norm_num
abbrev w2 (z : Fin 3 → ℝ) := wR2_ok z (ea := pointsCall [(2, 0)] "C") (.inr (.inr ⟨rfl, by simp [pointsCall]⟩)) win_none fits_none
  (by simp [HasFloats, pointsCall]) (sup_w _)
abbrev w2w (z : Fin 3 → ℝ) := wR2_ok z (ea := { pointsCall [(2, 0)] "C" with nClosest := some 2 }) (.inr (.inr ⟨rfl, by simp [pointsCall]⟩)) win_two fits_two3
  (by simp [HasFloats, pointsCall]) (sup_w _)
abbrev w3 (z : Fin 3 → ℝ) := wR3_ok z (ea := pointsCall3 [(2, 0, 0)] "loop") (.inr (.inr ⟨rfl, by simp [pointsCall3]⟩)) win_none fits_none
  (by simp [HasFloats3, pointsCall3]) (.inl rfl)
abbrev w3w (z : Fin 3 → ℝ) := wR3_ok z (ea := { pointsCall3 [(2, 0, 0)] "loop" with nClosest := some 2 }) (.inr (.inr ⟨rfl, by simp [pointsCall3]⟩)) win_two fits_two3
  (by simp [HasFloats3, pointsCall3]) (.inl rfl)
theorem W2_lin (z : Fin 3 → ℝ) : (W2 z).variogramFunction (W2 z).params = .ok fun d => 2 * d + 0 :=
  C47_variogram_2d (W2_ok z) (m := "linear") rfl (l := [2, 0]) rfl (by unfold textbook; simp)
theorem W3_lin (z : Fin 3 → ℝ) : (W3 z).variogramFunction (W3 z).params = .ok fun d => 2 * d + 0 :=
  C47_variogram_3d (W3_ok z) (m := "linear") rfl (l := [2, 0]) rfl (by unfold textbook; simp)
abbrev pl2 := C60_line_2d (args := wA2) rfl line2 (p := (2, 0)) (τ := 2) (by simp)
abbrev pl3 := C60_line_3d (args := wA3) line3 (p := (2, 0, 0)) (τ := 2) (by simp)
theorem ao2 : AtOrAway true fun i => okDistance wA2 (2, 0) (xl i, ol i) := fun _ i => .inr (away_l i)
theorem ao3 : AtOrAway true fun i => ok3Distance wA3 (2, 0, 0) (xl i, ol i, ol i) := fun _ i => .inr (away_l3 i)
example (z : Fin 3 → ℝ) := C60_linear_3d (W3_ok z) stdEnv_knn fits_none rfl rfl rfl rfl rfl (w3 z) (j := 0) (q3 _ _) rfl pl3 ao3
example (z : Fin 3 → ℝ) := C60_linear_window_2d (W2_ok z) (W2_adm z fits_two3) (k := 2) rfl rfl rfl rfl (w2w z) (j := 0) (q2 "C" _) rfl pl2 ao2
example (z : Fin 3 → ℝ) := C60_linear_window_3d (W3_ok z) stdEnv_knn fits_two3 (k := 2) rfl rfl rfl rfl (w3w z) (j := 0) (q3 "loop" _) rfl pl3 ao3
example (z : Fin 3 → ℝ) := C60_profile_2d (W2_ok z) (W2_adm z fits_none) rfl rfl (W2_lin z) (b := 2) (fun d _ => by ring) rfl (w2 z) (j := 0) (q2 _ _) rfl pl2 ao2
example (z : Fin 3 → ℝ) := C60_profile_3d (W3_ok z) stdEnv_knn fits_none rfl rfl (W3_lin z) (b := 2) (fun d _ => by ring) rfl (w3 z) (j := 0) (q3 _ _) rfl pl3 ao3
example (z : Fin 3 → ℝ) := C60_window_2d (W2_ok z) (W2_adm z fits_two3) (k := 2) rfl (W2_lin z) (b := 2) (fun d _ => by ring) rfl (w2w z) (j := 0) (q2 "C" _) rfl pl2 ao2
example (z : Fin 3 → ℝ) := C60_window_3d (W3_ok z) stdEnv_knn fits_two3 (k := 2) rfl (W3_lin z) (b := 2) (fun d _ => by ring) rfl (w3w z) (j := 0) (q3 "loop" _) rfl pl3 ao3
example := C60_meridian (args := { wA2 with coordinatesType := "geographic" }) (by simp) (x := fun _ : Fin 3 => 30) (y := ![-20, 0, 45])
  (p := (30, 10)) (fun _ => rfl) (by intro i; fin_cases i <;> norm_num [abs_of_pos]) (by norm_num)

/-! C39: the fourth datum is at the place of the third. -/
def c43 : Fin 4 → Fin 3 := ![0, 1, 2, 2]
def xr : Fin 4 → ℝ := ![0, 1, 3, 3]
example (v : Fin 4 → ℝ) : ∃ s, OK3D.create stdEnv xr (fun _ => 0) (fun _ => 0) v { wA3 with pseudoInv := true } = .ok s ∧
    s.execute stdEnv (pointsCall3 [(2, 0, 0)] "loop") = .ok (wR3 ![v 0, v 1, (v 2 + v 3) / 2] (pointsCall3 [(2, 0, 0)] "loop")) := by
  obtain ⟨hb, -, -, γ, hγ, -⟩ := lin2_valid.builtin
  obtain ⟨s, hs, -⟩ := C40_creates_3d stdEnv (by norm_num) xr (fun _ => 0) (fun _ => 0) v { wA3 with pseudoInv := true } (by simp [any3]) rfl rfl
    (m := "linear") (by simp [builtins]) rfl (by simp [ParamsWellFormed]) hγ (fun _ _ => .inl rfl)
  refine ⟨s, hs, C39_merge_3d (args := wA3) rfl hs (W3_ok _) (.inr (by simp [any3])) c43 ?_ ?_ ?_ rfl (W3_lin _) (by norm_num) (w3 _)⟩
  · intro k; fin_cases k
    exacts [⟨0, rfl⟩, ⟨1, rfl⟩, ⟨2, rfl⟩]
  · intro i; fin_cases i <;> simp [xr, xl, ol, c43]
  · have h0 : (Finset.univ.filter fun i => c43 i = 0) = {0} := by decide
    have h1 : (Finset.univ.filter fun i => c43 i = 1) = {1} := by decide
    have h2 : (Finset.univ.filter fun i => c43 i = 2) = {2, 3} := by decide
    intro k
    fin_cases k
    · show v 0 = (∑ i with c43 i = 0, v i) / (Finset.univ.filter fun i => c43 i = 0).card
      rw [h0]; simp
    · show v 1 = (∑ i with c43 i = 1, v i) / (Finset.univ.filter fun i => c43 i = 1).card
      rw [h1]; simp
    · show (v 2 + v 3) / 2 = (∑ i with c43 i = 2, v i) / (Finset.univ.filter fun i => c43 i = 2).card
      rw [h2, Finset.sum_pair (by decide)]; simp

/-! C70 -/
theorem valid_on2 : ValidOn (okDistance A2) sph := by
  obtain ⟨e, he⟩ := okDistance_embed (args := A2) rfl
  exact sph_valid3.on he
theorem valid_on3 : ValidOn (distance3 {}) sph := by
  obtain ⟨e, he⟩ := distance3_embed {}
  exact sph_valid3.on he
/-- A field of roughness 2 γ(5) in the plane, and one in space. -/
abbrev field2 : ℝ × ℝ → ℝ := fun p => 7 + ∑ j, (![1, -1] : Fin 2 → ℝ) j * sph (okDistance A2 p ((![(0, 0), (3, 4)] : Fin 2 → ℝ × ℝ) j))
abbrev field3 : ℝ × ℝ × ℝ → ℝ := fun p =>
  7 + ∑ j, (![1, -1] : Fin 2 → ℝ) j * sph (distance3 {} p ((![(0, 0, 0), (3, 4, 5)] : Fin 2 → ℝ × ℝ × ℝ) j))
abbrev rough2 := C70_fields valid_on2 (fun p q => by obtain ⟨e, he⟩ := okDistance_embed (args := A2) rfl; rw [he, he, norm_sub_rev])
  (![(0, 0), (3, 4)] : Fin 2 → ℝ × ℝ) (a := ![1, -1]) (by simp) 7
abbrev rough3 := C70_fields valid_on3 (fun p q => by obtain ⟨e, he⟩ := distance3_embed {}; rw [he, he, norm_sub_rev])
  (![(0, 0, 0), (3, 4, 5)] : Fin 2 → ℝ × ℝ × ℝ) (a := ![1, -1]) (by simp) 7
def data2 : Fin 4 → ℝ := fun i => field2 (x4 i, y4 i)
def data3 : Fin 4 → ℝ := fun i => field3 (x4 i, y4 i, z4 i)
example := rough2
theorem sph_pos' (d : ℝ) : 0 ≤ sph d ∨ d < 0 := (le_or_gt 0 d).imp (sph_pos d) id
theorem rough2_nonneg : 0 ≤ -∑ i, ∑ j, (![1, -1] : Fin 2 → ℝ) i * (![1, -1] : Fin 2 → ℝ) j *
    (if i = j then 0 else sph (okDistance A2 ((![(0, 0), (3, 4)] : Fin 2 → ℝ × ℝ) i) ((![(0, 0), (3, 4)] : Fin 2 → ℝ × ℝ) j))) := by
  have h1 := sph_pos _ (okDistance_nonneg A2 (0, 0) (3, 4))
  have h2 := sph_pos _ (okDistance_nonneg A2 (3, 4) (0, 0))
  simp [Fin.sum_univ_two]
  linarith
example := C70_combine valid_on2 rough2_nonneg rough2_nonneg rough2 rough2 3 (-4)
example := C70_near_2d (S2_ok data2) (S2_adm _ fits_none) rfl (S2_sph _) S2_neg sph_pos (r2 _) (j := 0) (q2 _ _) rfl rfl (.inr fun i => lt_of_lt_of_le (by norm_num) (awayP2 i))
  rough2_nonneg rough2 fun _ => rfl
example := C70_near_window_2d (S2_ok data2) (S2_adm _ fits_two) (k := 2) rfl (S2_sph _) S2_neg sph_pos sph_mono (r2w _) (j := 0) (q2 "C" _) rfl
  (.inr fun i => lt_of_lt_of_le (by norm_num) (awayP2 i)) rough2_nonneg rough2 fun _ => rfl
example := C70_error_3d (S3_ok data3) stdEnv_knn fits_none (S3_sph _) S3_neg (r3 _) (j := 0) (q3 _ _) rfl (.inl rfl) (.inr fun i => lt_of_lt_of_le (by norm_num) (awayP3 i))
  rough3 fun _ => rfl
example := C70_error_uk3d (U3_ok data3) (U3_sph _) (fun h => absurd h nospec3) U3_neg (ru3 _) (j := 0) (q3 _ _) rfl rfl (.inr fun i => lt_of_lt_of_le (by norm_num) (awayP3 i))
  rough3 (β := fun _ => 0) (L := 0) fun _ => by rw [Finset.sum_range_zero, add_zero]; rfl
theorem valid_n3 : ValidOn (ok3Distance nA3) fun d => 1 * d + 0 := by
  obtain ⟨e, he⟩ := distance3_embed {}
  obtain ⟨hb, -, -, γ, hγ, hval, -⟩ := lin_valid.builtin
  have h2 := lin_gamma hγ
  subst h2
  have := hval.on (show ∀ p q, ok3Distance nA3 p q = ‖e p - e q‖ from he)
  simpa using this
theorem N3_lin (z : Fin 4 → ℝ) : (N3 z).variogramFunction (N3 z).params = .ok fun d => 1 * d + 0 :=
  C47_variogram_3d (N3_ok z) (m := "linear") rfl (l := [1, 0]) rfl (by unfold textbook; simp)
abbrev n3 (z : Fin 4 → ℝ) := nR3_ok z (ea := pointsCall3 [P3] "loop") (.inr (.inr ⟨rfl, by simp [pointsCall3]⟩)) win_none fits_none
  (by simp [HasFloats3, pointsCall3]) (.inl rfl)
example (z : Fin 4 → ℝ) := C70_sharp_3d (N3_ok z) stdEnv_knn fits_none rfl (.inr (by simp [any3])) (N3_lin z) valid_n3
  (fun q => by show 1 * distance3 {} q q + 0 = 0; obtain ⟨e, he⟩ := distance3_embed {}; rw [he]; simp) (n3 z) (j := 0) (q3 _ _) rfl rfl
  (.inr fun i => lt_of_lt_of_le (by norm_num) (awayP3 i))
example := C70_dense_3d (args := nA3) valid_n3 (fun d hd => by linarith) (fun η hη => ⟨η, hη, fun d _ h => by linarith⟩) (f := fun _ => 5) (E := 0) le_rfl
  (fun ι _ p c hc => by rw [← Finset.sum_mul, hc]; simp) rfl (ε := 1 / 100) (by norm_num)
example (z : Fin 4 → ℝ) := C56_iff_uk (U2_ok z) rfl rfl (U2_params z ▸ sph_valid) (U2_params z ▸ .inl ⟨sph_grows, fun i j hij h0 =>
  hij (inj4 (anisoDist2_eq_zero (sc := 1) one_ne_zero 0 h0))⟩) (ea := { toExec := grid32 }) good_gridU.1 good_gridU.2.1
  (fun h => absurd h nospec) (.inl rfl) (fun _ _ _ _ => extU _)
example (z : Fin 4 → ℝ) := C56_iff_uk3d (U3_ok z) rfl rfl (U3_params z ▸ sph_valid) (U3_params z ▸ .inl ⟨sph_grows, fun i j hij h0 =>
  hij (inj4' (distance3_eq_zero h0))⟩) (ea := { toExec := grid321 }) good_gridU3.1 good_gridU3.2.1
  (fun h => absurd h nospec3) (.inl rfl)

/-! C39: data with a repeated place and a nugget; only the mean at that place counts. -/
def xm : Fin 4 → ℝ := ![0, 1, 0, 0]
def ym : Fin 4 → ℝ := ![0, 0, 1, 1]
theorem plane_m : Plane xm ym := by
  intro a b c h
  have h0 := h 0; have h1 := h 1; have h2 := h 2
  simp [xm, ym] at h0 h1 h2
  refine ⟨by linarith, by linarith, by linarith⟩
theorem mean_m (a b c d : ℝ) : ∀ i : Fin 4, meanAt (fun i => (xm i, ym i)) ![a, b, c + d, c - d] (xm i, ym i) =
    meanAt (fun i => (xm i, ym i)) ![a, b, c, c] (xm i, ym i) := by
  intro i
  unfold meanAt
  congr 1
  fin_cases i <;> simp [Finset.sum_filter, Fin.sum_univ_four, xm, ym]
theorem mean_m3 (a b c d : ℝ) : ∀ i : Fin 4, meanAt (fun i => (xm i, ym i, (0 : ℝ))) ![a, b, c + d, c - d] (xm i, ym i, 0) =
    meanAt (fun i => (xm i, ym i, (0 : ℝ))) ![a, b, c, c] (xm i, ym i, 0) := by
  intro i
  unfold meanAt
  congr 1
  fin_cases i <;> simp [Finset.sum_filter, Fin.sum_univ_four, xm, ym]
example (a b c d : ℝ) := (unug_ok (n := 4) (x := xm) (y := ym) (by norm_num) ![a, b, c, c] flat_valid flat_nugget plane_m).imp fun _ h =>
  C39_mean_uk h.1 (ea := { toExec := grid32 }) (.inr (by simp [uany])) (fun h => absurd h (by simp [uany])) ![a, b, c + d, c - d] (mean_m a b c d)
example (a b c d : ℝ) := (nug3_ok (n := 4) (x := xm) (y := ym) (z := fun _ => 0) (by norm_num) ![a, b, c, c] flat_valid flat_nugget).imp fun _ h =>
  C39_mean_3d h.1 (ea := grid321) stdEnv_knn fits_none rfl (.inr (by simp [any3])) ![a, b, c + d, c - d] (mean_m3 a b c d)
/-- Five data in space, two of them at one place. -/
def xd5 : Fin 5 → ℝ := ![0, 1, 0, 0, 0]
def yd5 : Fin 5 → ℝ := ![0, 0, 1, 0, 0]
def zd5 : Fin 5 → ℝ := ![0, 0, 0, 1, 1]
theorem space_5 : Space xd5 yd5 zd5 := by
  intro a b c e h
  have h0 := h 0; have h1 := h 1; have h2 := h 2; have h3 := h 3
  simp [xd5, yd5, zd5] at h0 h1 h2 h3
  refine ⟨by linarith, by linarith, by linarith, by linarith⟩
theorem mean_5 (a b c e d : ℝ) : ∀ i : Fin 5, meanAt (fun i => (xd5 i, yd5 i, zd5 i)) ![a, b, c, e + d, e - d] (xd5 i, yd5 i, zd5 i) =
    meanAt (fun i => (xd5 i, yd5 i, zd5 i)) ![a, b, c, e, e] (xd5 i, yd5 i, zd5 i) := by
  intro i
  unfold meanAt
  congr 1
  fin_cases i <;> simp [Finset.sum_filter, Fin.sum_univ_five, xd5, yd5, zd5]
example (a b c e d : ℝ) := (unug3_ok (n := 5) (x := xd5) (y := yd5) (z := zd5) (by norm_num) ![a, b, c, e, e] flat_valid flat_nugget space_5).imp fun _ h =>
  C39_mean_uk3d h.1 (ea := { toExec := grid321 }) (.inr (by simp [uany3])) (fun h => absurd h (by simp [uany3])) ![a, b, c, e + d, e - d] (mean_5 a b c e d)

end
end PyKrige.Demo
