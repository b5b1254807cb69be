import Verif.Examples.Any
import Verif.Props.C01
import Verif.Props.C11
import Verif.Props.C17
import Verif.Props.C28

/-!
More concrete cases that meet the hypotheses of the theorems: four data, spherical variogram with sill 3, range 2 and
nugget 1.
-/

set_option linter.unusedSectionVars false

namespace PyKrige.Demo
noncomputable section
open Spec

def x4 : Fin 4 → ℝ := ![0, 1, 0, 2]
def y4 : Fin 4 → ℝ := ![0, 0, 1, 1]
def z4 : Fin 4 → ℝ := ![0, 0, 0, 1]

theorem inj4 : Function.Injective fun i => (x4 i, y4 i) := by
  intro i j h
  fin_cases i <;> fin_cases j <;> first | rfl | (exfalso; simp [x4, y4] at h)

theorem inj4' : Function.Injective fun i => (x4 i, y4 i, z4 i) := by
  intro i j h
  exact inj4 (Prod.ext (congrArg (fun p : ℝ × ℝ × ℝ => p.1) h) (congrArg (fun p : ℝ × ℝ × ℝ => p.2.1) h))

theorem plane4 : Plane x4 y4 := by
  intro a b c h
  have h0 := h 0
  have h1 := h 1
  have h2 := h 2
  simp [x4, y4] at h0 h1 h2
  exact ⟨by linarith, by linarith, h0⟩

theorem space4 : Space x4 y4 z4 := by
  intro a b c d h
  have h0 := h 0
  have h1 := h 1
  have h2 := h 2
  have h3 := h 3
  simp [x4, y4, z4] at h0 h1 h2 h3
  exact ⟨by linarith, by linarith, by linarith, h0⟩

theorem sph_valid : ValidModel "spherical" (listMeaning "spherical" [3, 2, 1]) :=
  .inr (.inr ⟨2, 2, 1, by simp, by simp [listMeaning]; norm_num, by norm_num, by norm_num, by norm_num⟩)

theorem sph_grows : Growing (listMeaning "spherical" [3, 2, 1]) := ⟨2, [2, 1], by simp [listMeaning]; norm_num, by norm_num⟩

theorem pts_wellPosed (l : List (ℝ × ℝ)) (b : String) : WellPosed (pts l b) ∧ HasFloats (pts l b) :=
  ⟨.inr (.inr ⟨rfl, by simp [pts]⟩), by simp [HasFloats, pts]⟩

theorem pts_wellPosed3 (l : List (ℝ × ℝ × ℝ)) (b : String) : WellPosed3 (pts3 l b) ∧ HasFloats3 (pts3 l b) :=
  ⟨.inr (.inr ⟨rfl, by simp [pts3], by simp [pts3]⟩), by simp [HasFloats3, pts3]⟩

/-- C29, C28, C11 (2D): a moving window of two of the four data, and all of them. -/
example (z : Fin 4 → ℝ) (l : List (ℝ × ℝ)) : ∃ s, OK.create stdEnv x4 y4 z (any "spherical" [3, 2, 1]) = .ok s ∧
    (∃ r, s.execute stdEnv (pts l "vectorized") = .ok r) ∧
    (∃ r, s.execute stdEnv { pts l "loop" with nClosest := some 2 } = .ok r) ∧
    (∃ r, s.execute stdEnv { pts l "C" with nClosest := some 3 } = .ok r) ∧
    (∀ nc, WindowFits 4 nc → Admissible stdEnv (any "spherical" [3, 2, 1]) s nc) ∧
    ∃ γ, s.variogramFunction s.params = .ok γ ∧
      CondNeg (semivar γ fun i i' => okDistance (any "spherical" [3, 2, 1]) (x4 i, y4 i) (x4 i', y4 i')) := by
  obtain ⟨s, h, hp, ha, hr⟩ := any_ok (n := 4) (by norm_num) z sph_valid sph_grows inj4
  obtain ⟨hb, -, -, γ, hγ, hval, -⟩ := sph_valid.builtin
  obtain ⟨hev, -⟩ := chosen_evaluates hγ hb (OK.create_function h (m := "spherical") rfl)
  obtain ⟨e, he⟩ := okDistance_embed (args := any "spherical" [3, 2, 1]) rfl
  refine ⟨s, h, hr _ (pts_wellPosed l "vectorized").1 (by intro k hk; cases hk) (by intro k hk; cases hk) (pts_wellPosed l "vectorized").2
    (.inr (.inl ⟨rfl, rfl⟩)), hr _ (pts_wellPosed l "loop").1 (by intro k hk; cases hk; norm_num) (by intro k hk; cases hk; norm_num)
    (pts_wellPosed l "loop").2 (.inl rfl), hr _ (pts_wellPosed l "C").1 (by intro k hk; cases hk; norm_num)
    (by intro k hk; cases hk; norm_num) (pts_wellPosed l "C").2 (.inr (.inr ⟨rfl, .inr ⟨⟨"spherical", by simp [compiledModels], rfl⟩,
      .inr rfl⟩⟩)), ha, γ, hp ▸ hev, hval.data he fun i => (x4 i, y4 i)⟩

/-- C29, C28, C11 (3D). -/
example (v : Fin 4 → ℝ) (l : List (ℝ × ℝ × ℝ)) : ∃ s, OK3D.create stdEnv x4 y4 z4 v (any3 "spherical" [3, 2, 1]) = .ok s ∧
    (∃ r, s.execute stdEnv (pts3 l "vectorized") = .ok r) ∧
    (∃ r, s.execute stdEnv { pts3 l "loop" with nClosest := some 2 } = .ok r) ∧
    ∃ γ, s.variogramFunction s.params = .ok γ ∧
      CondNeg (semivar γ fun i i' => ok3Distance (any3 "spherical" [3, 2, 1]) (x4 i, y4 i, z4 i) (x4 i', y4 i', z4 i')) := by
  obtain ⟨s, h, hp, hr⟩ := any3_ok (n := 4) (by norm_num) v sph_valid sph_grows inj4'
  obtain ⟨hb, -, -, γ, hγ, hval, -⟩ := sph_valid.builtin
  obtain ⟨hev, -⟩ := chosen_evaluates hγ hb (OK3D.create_function h (m := "spherical") rfl)
  obtain ⟨e, he⟩ := distance3_embed (effAniso (any3 "spherical" [3, 2, 1]).variogramModel (any3 "spherical" [3, 2, 1]).aniso)
  exact ⟨s, h, hr _ (pts_wellPosed3 l "vectorized").1 (by intro k hk; cases hk) (by intro k hk; cases hk) (pts_wellPosed3 l "vectorized").2
    (.inr ⟨rfl, rfl⟩), hr _ (pts_wellPosed3 l "loop").1 (by intro k hk; cases hk; norm_num) (by intro k hk; cases hk; norm_num)
    (pts_wellPosed3 l "loop").2 (.inl rfl), γ, hp ▸ hev, hval.data he fun i => (x4 i, y4 i, z4 i)⟩

/-- C29, C28, C17 (2D universal kriging with regional linear drift): the data are turned by 30 degrees. -/
example (z : Fin 4 → ℝ) (l : List (ℝ × ℝ)) : ∃ s r s', UK.create stdEnv x4 y4 z (uany "spherical" [3, 2, 1]) = .ok s ∧
    s.execute { toExec := pointsCall l "vectorized" } = .ok r ∧
    UK.create stdEnv (fun i => (affine2 (rotation 30) (7, -3) (x4 i, y4 i)).1)
      (fun i => (affine2 (rotation 30) (7, -3) (x4 i, y4 i)).2) z
      { uany "spherical" [3, 2, 1] with anisotropyScaling := 1, anisotropyAngle := 0 + 30 } = .ok s' ∧
    s'.execute { toExec := pointsCall (l.map (affine2 (rotation 30) (7, -3))) "vectorized" } = .ok r ∧
    ∃ γ, s.variogramFunction s.params = .ok γ ∧
      CondNeg (semivar γ fun i i' => ukDistance (uany "spherical" [3, 2, 1]) (x4 i, y4 i) (x4 i', y4 i')) := by
  obtain ⟨s, h, hp, -, hr⟩ := uany_ok (n := 4) (by norm_num) z sph_valid sph_grows inj4 plane4
  obtain ⟨hb, -, -, γ, hγ, hval, -⟩ := sph_valid.builtin
  obtain ⟨hev, -⟩ := chosen_evaluates hγ hb (UK.create_function h (m := "spherical") rfl)
  obtain ⟨e, he⟩ := anisoDist2_embed 1 0
  obtain ⟨r, hr⟩ := hr { toExec := pointsCall l "vectorized" } (.inr (.inr ⟨rfl, by simp [pointsCall]⟩)) (by simp [HasFloats, pointsCall]) (.inl rfl)
  obtain ⟨s', h', -, -, -, hh⟩ := C17_affine_uk h (by simp [uany]) rfl (by simp [effScaling, uany]) rfl
    (R := rotation 30) (t := (7, -3)) (sc' := 1) (an' := 0 + 30)
    (fun p q => by exact C17_distance_turns 1 0 30 (7, -3) p q) (fun i => rfl)
  exact ⟨s, r, s', h, hr, h', hh { toExec := pointsCall l "vectorized" } { toExec := pointsCall (l.map (affine2 (rotation 30) (7, -3))) "vectorized" } (moved_points (affine2 (rotation 30) (7, -3)) l "vectorized" none) rfl r hr, γ, hp ▸ hev,
    hval.data he fun i => (x4 i, y4 i)⟩

/-- C29, C28 (3D universal kriging with regional linear drift). -/
example (v : Fin 4 → ℝ) (l : List (ℝ × ℝ × ℝ)) : ∃ s r, UK3D.create stdEnv x4 y4 z4 v (uany3 "spherical" [3, 2, 1]) = .ok s ∧
    s.execute { toExec := pts3 l "loop" } = .ok r ∧
    ∃ γ, s.variogramFunction s.params = .ok γ ∧
      CondNeg (semivar γ fun i i' => uk3Distance (uany3 "spherical" [3, 2, 1]) (x4 i, y4 i, z4 i) (x4 i', y4 i', z4 i')) := by
  obtain ⟨s, h, hp, -, hr⟩ := uany3_ok (n := 4) (by norm_num) v sph_valid sph_grows inj4' space4
  obtain ⟨hb, -, -, γ, hγ, hval, -⟩ := sph_valid.builtin
  obtain ⟨hev, -⟩ := chosen_evaluates hγ hb (UK3D.create_function h (m := "spherical") rfl)
  obtain ⟨e, he⟩ := distance3_embed (effAniso (uany3 "spherical" [3, 2, 1]).variogramModel (uany3 "spherical" [3, 2, 1]).aniso)
  obtain ⟨r, hr⟩ := hr { toExec := pts3 l "loop" } (pts_wellPosed3 l _).1 (pts_wellPosed3 l _).2 (.inr rfl)
  exact ⟨s, r, h, hr, γ, hp ▸ hev, hval.data he fun i => (x4 i, y4 i, z4 i)⟩

/-- C01: list and dict give one and the same object. -/
example (z : Fin 4 → ℝ) : ∃ s, OK.create stdEnv x4 y4 z (any "spherical" [3, 2, 1]) = .ok s ∧
    OK.create stdEnv x4 y4 z { any "spherical" [3, 2, 1] with
      params := .dict fun k => if k = "sill" then some 3 else if k = "range" then some 2 else
        if k = "nugget" then some 1 else none } = .ok s ∧
    OK.create stdEnv x4 y4 z { any "spherical" [3, 2, 1] with
      params := .dict fun k => if k = "psill" then some (3 - 1) else if k = "range" then some 2 else
        if k = "nugget" then some 1 else none } = .ok s := by
  obtain ⟨s, h, -⟩ := any_ok (n := 4) (by norm_num) z sph_valid sph_grows inj4
  obtain ⟨h1, h2⟩ := C01_formats_agree "spherical" (by simp [sillModels]) 3 2 1
    (fun k => if k = "sill" then some 3 else if k = "range" then some 2 else if k = "nugget" then some 1 else none)
    (fun k => if k = "psill" then some (3 - 1) else if k = "range" then some 2 else if k = "nugget" then some 1 else none)
    (by simp) (by simp)
  exact ⟨s, h, by rw [← h]; exact (h1.1 4 stdEnv x4 y4 z (any "spherical" [3, 2, 1])).symm,
    by rw [← h]; exact (h2.1 4 stdEnv x4 y4 z (any "spherical" [3, 2, 1])).symm⟩

end
end PyKrige.Demo
