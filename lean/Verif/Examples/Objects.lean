import Verif.Examples.More

/-!
Four concrete objects, one of each class, for the examples in `Verif/Examples/Use*.lean`: four data at the places
`x4, y4(, z4)`, any data values, spherical variogram with sill 3, range 2 and nugget 1; the universal ones with regional
linear drift.  `S2 z`, `S3 v`, `U2 z`, `U3 v` are the objects the constructors return, `R2 z ea` … what `execute` returns.
-/

set_option linter.unusedSectionVars false

namespace PyKrige.Demo
noncomputable section
open Spec

abbrev A2 : OKArgs := any "spherical" [3, 2, 1]
abbrev A3 : OK3DArgs := any3 "spherical" [3, 2, 1]
abbrev B2 : UKArgs := uany "spherical" [3, 2, 1]
abbrev B3 : UK3DArgs := uany3 "spherical" [3, 2, 1]

def S2 (z : Fin 4 → ℝ) : OK 4 := Classical.choose (any_ok (n := 4) (by norm_num) z sph_valid sph_grows inj4)
def S3 (v : Fin 4 → ℝ) : OK3D 4 := Classical.choose (any3_ok (n := 4) (by norm_num) v sph_valid sph_grows inj4')
def U2 (z : Fin 4 → ℝ) : UK 4 := Classical.choose (uany_ok (n := 4) (by norm_num) z sph_valid sph_grows inj4 plane4)
def U3 (v : Fin 4 → ℝ) : UK3D 4 := Classical.choose (uany3_ok (n := 4) (by norm_num) v sph_valid sph_grows inj4' space4)

theorem S2_ok (z : Fin 4 → ℝ) : OK.create stdEnv x4 y4 z A2 = .ok (S2 z) :=
  (Classical.choose_spec (any_ok (n := 4) (by norm_num) z sph_valid sph_grows inj4)).1
theorem S3_ok (v : Fin 4 → ℝ) : OK3D.create stdEnv x4 y4 z4 v A3 = .ok (S3 v) :=
  (Classical.choose_spec (any3_ok (n := 4) (by norm_num) v sph_valid sph_grows inj4')).1
theorem U2_ok (z : Fin 4 → ℝ) : UK.create stdEnv x4 y4 z B2 = .ok (U2 z) :=
  (Classical.choose_spec (uany_ok (n := 4) (by norm_num) z sph_valid sph_grows inj4 plane4)).1
theorem U3_ok (v : Fin 4 → ℝ) : UK3D.create stdEnv x4 y4 z4 v B3 = .ok (U3 v) :=
  (Classical.choose_spec (uany3_ok (n := 4) (by norm_num) v sph_valid sph_grows inj4' space4)).1

theorem S2_params (z : Fin 4 → ℝ) : (S2 z).params = listMeaning "spherical" [3, 2, 1] :=
  (Classical.choose_spec (any_ok (n := 4) (by norm_num) z sph_valid sph_grows inj4)).2.1
theorem S3_params (z : Fin 4 → ℝ) : (S3 z).params = listMeaning "spherical" [3, 2, 1] :=
  (Classical.choose_spec (any3_ok (n := 4) (by norm_num) z sph_valid sph_grows inj4')).2.1
theorem U2_params (z : Fin 4 → ℝ) : (U2 z).params = listMeaning "spherical" [3, 2, 1] :=
  (Classical.choose_spec (uany_ok (n := 4) (by norm_num) z sph_valid sph_grows inj4 plane4)).2.1
theorem U3_params (z : Fin 4 → ℝ) : (U3 z).params = listMeaning "spherical" [3, 2, 1] :=
  (Classical.choose_spec (uany3_ok (n := 4) (by norm_num) z sph_valid sph_grows inj4' space4)).2.1

/-- Requests the objects answer. -/
def Good2 (ea : ExecArgs) : Prop :=
  WellPosed ea ∧ WindowOk ea.nClosest ∧ WindowFits 4 ea.nClosest ∧ HasFloats ea ∧ Supports stdEnv A2 ea.nClosest ea.backend
def Good3 (ea : ExecArgs3) : Prop :=
  WellPosed3 ea ∧ WindowOk ea.nClosest ∧ WindowFits 4 ea.nClosest ∧ HasFloats3 ea ∧
    (ea.backend = "loop" ∨ (ea.nClosest = none ∧ ea.backend = "vectorized"))
def GoodU (ea : UKExecArgs) : Prop :=
  WellPosed ea.toExec ∧ HasFloats ea.toExec ∧ (ea.toExec.backend = "vectorized" ∨ ea.toExec.backend = "loop")
def GoodU3 (ea : UK3DExecArgs) : Prop :=
  WellPosed3 ea.toExec ∧ HasFloats3 ea.toExec ∧ (ea.toExec.backend = "vectorized" ∨ ea.toExec.backend = "loop")

theorem S2_adm (z : Fin 4 → ℝ) {nc : Option ℤ} (h : WindowFits 4 nc) : Admissible stdEnv A2 (S2 z) nc :=
  (Classical.choose_spec (any_ok (n := 4) (by norm_num) z sph_valid sph_grows inj4)).2.2.1 nc h

/-- The answer, if there is one. -/
def answer (r : Py ExecResult) : ExecResult := match r with | .ok r => r | .error _ => ⟨[], [], []⟩

def R2 (z : Fin 4 → ℝ) (ea : ExecArgs) : ExecResult := answer ((S2 z).execute stdEnv ea)
def R3 (v : Fin 4 → ℝ) (ea : ExecArgs3) : ExecResult := answer ((S3 v).execute stdEnv ea)
def Q2 (z : Fin 4 → ℝ) (ea : UKExecArgs) : ExecResult := answer ((U2 z).execute ea)
def Q3 (v : Fin 4 → ℝ) (ea : UK3DExecArgs) : ExecResult := answer ((U3 v).execute ea)

theorem R2_ok (z : Fin 4 → ℝ) {ea : ExecArgs} (h : Good2 ea) : (S2 z).execute stdEnv ea = .ok (R2 z ea) := by
  obtain ⟨r, hr⟩ := (Classical.choose_spec (any_ok (n := 4) (by norm_num) z sph_valid sph_grows inj4)).2.2.2 ea h.1 h.2.1 h.2.2.1
    h.2.2.2.1 h.2.2.2.2
  have hr : (S2 z).execute stdEnv ea = .ok r := hr
  rw [R2, hr]
  rfl

theorem R3_ok (v : Fin 4 → ℝ) {ea : ExecArgs3} (h : Good3 ea) : (S3 v).execute stdEnv ea = .ok (R3 v ea) := by
  obtain ⟨r, hr⟩ := (Classical.choose_spec (any3_ok (n := 4) (by norm_num) v sph_valid sph_grows inj4')).2.2 ea h.1 h.2.1 h.2.2.1
    h.2.2.2.1 h.2.2.2.2
  have hr : (S3 v).execute stdEnv ea = .ok r := hr
  rw [R3, hr]
  rfl

theorem Q2_ok (z : Fin 4 → ℝ) {ea : UKExecArgs} (h : GoodU ea) : (U2 z).execute ea = .ok (Q2 z ea) := by
  obtain ⟨r, hr⟩ := (Classical.choose_spec (uany_ok (n := 4) (by norm_num) z sph_valid sph_grows inj4 plane4)).2.2.2 ea h.1 h.2.1 h.2.2
  have hr : (U2 z).execute ea = .ok r := hr
  rw [Q2, hr]
  rfl

theorem Q3_ok (v : Fin 4 → ℝ) {ea : UK3DExecArgs} (h : GoodU3 ea) : (U3 v).execute ea = .ok (Q3 v ea) := by
  obtain ⟨r, hr⟩ := (Classical.choose_spec (uany3_ok (n := 4) (by norm_num) v sph_valid sph_grows inj4' space4)).2.2.2 ea h.1 h.2.1 h.2.2
  have hr : (U3 v).execute ea = .ok r := hr
  rw [Q3, hr]
  rfl

theorem win_none : WindowOk none := by intro k hk; cases hk
theorem win_two : WindowOk (some 2) := by intro k hk; cases hk; norm_num
theorem win_all : WindowOk (some ((4 : ℕ) : ℤ)) := by intro k hk; cases hk; norm_num
theorem fits_none {n : ℕ} : WindowFits n none := by intro k hk; cases hk
theorem fits_two : WindowFits 4 (some 2) := by intro k hk; cases hk; norm_num
theorem fits_all : WindowFits 4 (some ((4 : ℕ) : ℤ)) := by intro k hk; cases hk; norm_num

/-- A list of points. -/
theorem good_points (l : List (ℝ × ℝ)) {b : String} (hb : b = "vectorized" ∨ b = "loop" ∨ b = "C") :
    Good2 (pointsCall l b) := by
  refine ⟨.inr (.inr ⟨rfl, by simp [pointsCall]⟩), win_none, fits_none, by simp [HasFloats, pointsCall], ?_⟩
  rcases hb with rfl | rfl | rfl
  · exact .inr (.inl ⟨rfl, rfl⟩)
  · exact .inl rfl
  · exact .inr (.inr ⟨rfl, .inr ⟨⟨"spherical", by simp [compiledModels], rfl⟩, .inr rfl⟩⟩)

/-- A list of points, two of the four data for each. -/
theorem good_window (l : List (ℝ × ℝ)) {b : String} (hb : b = "loop" ∨ b = "C") :
    Good2 { pointsCall l b with nClosest := some 2 } := by
  refine ⟨.inr (.inr ⟨rfl, by simp [pointsCall]⟩), win_two, fits_two, by simp [HasFloats, pointsCall], ?_⟩
  rcases hb with rfl | rfl
  · exact .inl rfl
  · exact .inr (.inr ⟨rfl, .inr ⟨⟨"spherical", by simp [compiledModels], rfl⟩, .inr rfl⟩⟩)

/-- All four data in the window. -/
theorem good_window4 (l : List (ℝ × ℝ)) {b : String} (hb : b = "loop" ∨ b = "C") :
    Good2 { pointsCall l b with nClosest := some ((4 : ℕ) : ℤ) } := by
  refine ⟨.inr (.inr ⟨rfl, by simp [pointsCall]⟩), win_all, fits_all, by simp [HasFloats, pointsCall], ?_⟩
  rcases hb with rfl | rfl
  · exact .inl rfl
  · exact .inr (.inr ⟨rfl, .inr ⟨⟨"spherical", by simp [compiledModels], rfl⟩, .inr rfl⟩⟩)

/-- A grid of three columns and two rows, and a mask of that shape that hides one cell. -/
def grid32 : ExecArgs :=
  { style := "grid", xpoints := ⟨[0, 1 / 2, 1], false⟩, ypoints := ⟨[1 / 4, 2], false⟩, backend := "vectorized" }
def mask32 : Mask2 := ⟨2, 3, fun r c => r == 1 && c == 0⟩

theorem good_grid : Good2 grid32 :=
  ⟨.inl rfl, win_none, fits_none, by simp [HasFloats, grid32], .inr (.inl ⟨rfl, rfl⟩)⟩
theorem good_masked : Good2 { grid32 with style := "masked", mask := some mask32 } :=
  ⟨.inr (.inl ⟨rfl, _, rfl, .inl ⟨rfl, rfl⟩⟩), win_none, fits_none, by simp [HasFloats, grid32],
    .inr (.inl ⟨rfl, rfl⟩)⟩

theorem good_points3 (l : List (ℝ × ℝ × ℝ)) {b : String} (hb : b = "vectorized" ∨ b = "loop") :
    Good3 (pointsCall3 l b) :=
  ⟨.inr (.inr ⟨rfl, by simp [pointsCall3], by simp [pointsCall3]⟩), win_none, fits_none,
    by simp [HasFloats3, pointsCall3], hb.symm.imp id fun h => ⟨rfl, h⟩⟩

theorem good_window3 (l : List (ℝ × ℝ × ℝ)) : Good3 { pointsCall3 l "loop" with nClosest := some 2 } :=
  ⟨.inr (.inr ⟨rfl, by simp [pointsCall3], by simp [pointsCall3]⟩), win_two, fits_two,
    by simp [HasFloats3, pointsCall3], .inl rfl⟩
theorem good_window43 (l : List (ℝ × ℝ × ℝ)) : Good3 { pointsCall3 l "loop" with nClosest := some ((4 : ℕ) : ℤ) } :=
  ⟨.inr (.inr ⟨rfl, by simp [pointsCall3], by simp [pointsCall3]⟩), win_all, fits_all,
    by simp [HasFloats3, pointsCall3], .inl rfl⟩

/-- A grid of three by two by one cells, and a mask of that shape that hides one cell. -/
def grid321 : ExecArgs3 :=
  { style := "grid", xpoints := ⟨[0, 1 / 2, 1], false⟩, ypoints := ⟨[1 / 4, 2], false⟩, zpoints := ⟨[5], false⟩
    backend := "vectorized" }
def mask321 : Mask3 := .arr 1 2 3 fun _ r c => r == 1 && c == 0

theorem good_grid3 : Good3 grid321 :=
  ⟨.inl rfl, win_none, fits_none, by simp [HasFloats3, grid321], .inr ⟨rfl, rfl⟩⟩
theorem good_masked3 : Good3 { grid321 with style := "masked", mask := some mask321 } :=
  ⟨.inr (.inl ⟨rfl, _, _, _, _, rfl, .inl ⟨rfl, rfl, rfl⟩⟩), win_none, fits_none, by simp [HasFloats3, grid321],
    .inr ⟨rfl, rfl⟩⟩

theorem good_pointsU (l : List (ℝ × ℝ)) {b : String} (hb : b = "vectorized" ∨ b = "loop") :
    GoodU { toExec := pointsCall l b } := ⟨.inr (.inr ⟨rfl, by simp [pointsCall]⟩), by simp [HasFloats, pointsCall], hb⟩
theorem good_gridU : GoodU { toExec := grid32 } := ⟨.inl rfl, by simp [HasFloats, grid32], .inl rfl⟩
theorem good_maskedU : GoodU { toExec := { grid32 with style := "masked", mask := some mask32 } } :=
  ⟨.inr (.inl ⟨rfl, _, rfl, .inl ⟨rfl, rfl⟩⟩), by simp [HasFloats, grid32], .inl rfl⟩

theorem good_pointsU3 (l : List (ℝ × ℝ × ℝ)) {b : String} (hb : b = "vectorized" ∨ b = "loop") :
    GoodU3 { toExec := pointsCall3 l b } :=
  ⟨.inr (.inr ⟨rfl, by simp [pointsCall3], by simp [pointsCall3]⟩), by simp [HasFloats3, pointsCall3], hb⟩
theorem good_gridU3 : GoodU3 { toExec := grid321 } := ⟨.inl rfl, by simp [HasFloats3, grid321], .inl rfl⟩
theorem good_maskedU3 : GoodU3 { toExec := { grid321 with style := "masked", mask := some mask321 } } :=
  ⟨.inr (.inl ⟨rfl, _, _, _, _, rfl, .inl ⟨rfl, rfl, rfl⟩⟩), by simp [HasFloats3, grid321], .inl rfl⟩

end
end PyKrige.Demo
