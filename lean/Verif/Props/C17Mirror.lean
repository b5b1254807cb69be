import Verif.Props.C17

/-!
C17, continued: mirror images. Reflecting the data, the query points and the anisotropy direction at the same line changes
nothing; in particular the roles of x and y may be exchanged.
-/

namespace PyKrige
noncomputable section
open Matrix Spec

/-- The reflection of the plane at the line through the origin whose direction is `φ / 2` degrees; for `φ = 90` it
exchanges the coordinates. -/
def Spec.reflection (φ : ℝ) : Matrix (Fin 2) (Fin 2) ℝ :=
  !![Real.cos (rad φ), Real.sin (rad φ); Real.sin (rad φ), -Real.cos (rad φ)]

/-- Reflecting both points and the anisotropy direction (and shifting both points) keeps the anisotropic distance. -/
theorem C17_distance_mirrors (sc an φ : ℝ) (t p q : ℝ × ℝ) :
    anisoDist2 sc (φ - an) (affine2 (reflection φ) t p) (affine2 (reflection φ) t q) = anisoDist2 sc an p q := by
  have h := Real.sin_sq_add_cos_sq (rad φ)
  have e : rad (φ - an) = rad φ - rad an := by unfold rad; ring
  unfold anisoDist2 affine2 reflection
  rw [e, Real.cos_sub, Real.sin_sub]
  simp
  generalize Real.sin (rad φ) = s at *
  generalize Real.cos (rad φ) = c at *
  generalize Real.sin (rad an) = u at *
  generalize Real.cos (rad an) = v at *
  have e1 : (c * v + s * u) * (c * p.1 + s * p.2 - (c * q.1 + s * q.2)) +
      (s * v - c * u) * (s * p.1 + -(c * p.2) - (s * q.1 + -(c * q.2))) = v * (p.1 - q.1) + u * (p.2 - q.2) := by
    linear_combination (v * (p.1 - q.1) + u * (p.2 - q.2)) * h
  have e2 : (-(s * v - c * u)) * (c * p.1 + s * p.2 - (c * q.1 + s * q.2)) +
      (c * v + s * u) * (s * p.1 + -(c * p.2) - (s * q.1 + -(c * q.2))) = -(-u * (p.1 - q.1) + v * (p.2 - q.2)) := by
    linear_combination (-(-u * (p.1 - q.1) + v * (p.2 - q.2))) * h
  congr 1
  have e1' := congrArg (· ^ 2) e1
  have e2' := congrArg (fun w => sc ^ 2 * w ^ 2) e2
  beta_reduce at e1' e2'
  linear_combination e1' + e2'

/-- `OrdinaryKriging`: reflecting (and shifting) the data, the query points and the anisotropy direction changes
nothing. -/
theorem C17_mirror_ok {n : ℕ} {env : Env} {x y z : Fin n → ℝ} {args : OKArgs} {s : OK n}
    (h : OK.create env x y z args = .ok s) (he : args.coordinatesType = "euclidean") {m : String}
    (hm : args.variogramModel = .name m) (φ : ℝ) (t : ℝ × ℝ) {x' y' : Fin n → ℝ}
    (hxy : ∀ i, (x' i, y' i) = affine2 (reflection φ) t (x i, y i)) :
    ∃ s', OK.create env x' y' z { args with anisotropyAngle := φ - args.anisotropyAngle } = .ok s' ∧
      s'.lags = s.lags ∧ s'.params = s.params ∧ s'.stats = s.stats ∧
      ∀ ea ea', Moved (affine2 (reflection φ) t) ea ea' → Admissible env args s ea.nClosest →
        NoTies ea.nClosest (queryAt ea) (fun p i => okDistance args p (x i, y i)) →
        ∀ r, s.execute env ea = .ok r → s'.execute env ea' = .ok r := by
  have key : ∀ p q, okDistance { args with anisotropyAngle := φ - args.anisotropyAngle }
      (affine2 (reflection φ) t p) (affine2 (reflection φ) t q) = okDistance args p q := by
    intro p q
    unfold okDistance distance2 effScaling effAngle
    simp only [hm]
    rw [if_pos he, if_pos he, C17_distance_mirrors]
  obtain ⟨s', h', e1, e2, e3, hh⟩ := C16_only_distances_2d h (x' := x') (y' := y')
    (sc' := args.anisotropyScaling) (an' := φ - args.anisotropyAngle)
    (args' := { args with anisotropyAngle := φ - args.anisotropyAngle }) rfl
    (fun i j => by rw [hxy, hxy, key])
  exact ⟨s', h', e1, e2, e3, fun ea ea' hmv ha ht r hr => hh (affine2 (reflection φ) t)
    (fun p i => by rw [hxy, key]) ea ea' ha hmv ht r hr⟩

/-- `UniversalKriging` with no drift but the regional linear one. -/
theorem C17_mirror_uk {n : ℕ} {env : Env} {x y z : Fin n → ℝ} {args : UKArgs} {s : UK n}
    (h : UK.create env x y z args = .ok s) (hdt : ∀ t ∈ args.driftTerms, t = "regional_linear")
    (hp : args.pseudoInv = false) {m : String} (hm : args.variogramModel = .name m) (hsc : args.anisotropyScaling ≠ 0)
    (φ : ℝ) (t : ℝ × ℝ) {x' y' : Fin n → ℝ} (hxy : ∀ i, (x' i, y' i) = affine2 (reflection φ) t (x i, y i)) :
    ∃ s', UK.create env x' y' z { args with anisotropyAngle := φ - args.anisotropyAngle } = .ok s' ∧
      s'.lags = s.lags ∧ s'.params = s.params ∧ s'.stats = s.stats ∧
      ∀ ea ea', Moved (affine2 (reflection φ) t) ea.toExec ea'.toExec → ea'.spec = ea.spec →
        ∀ r, s.execute ea = .ok r → s'.execute ea' = .ok r := by
  refine C17_affine_uk h hdt hp (by rw [hm]; exact hsc) (sc' := args.anisotropyScaling)
    (an' := φ - args.anisotropyAngle) rfl (fun p q => ?_) hxy
  unfold ukDistance effScaling effAngle
  simp only [hm]
  exact C17_distance_mirrors _ _ _ _ _ _

theorem swap_affine (p : ℝ × ℝ) : affine2 (reflection 90) (0, 0) p = (p.2, p.1) := by
  have e : rad 90 = Real.pi / 2 := by unfold rad; ring
  unfold affine2 reflection
  rw [e, Real.cos_pi_div_two, Real.sin_pi_div_two]
  simp

/-- Exchanging the coordinates of the data and of the query points: the anisotropy angle, counted from the x axis, is
counted from the y axis. -/
theorem C17_swap_ok {n : ℕ} {env : Env} {x y z : Fin n → ℝ} {args : OKArgs} {s : OK n}
    (h : OK.create env x y z args = .ok s) (he : args.coordinatesType = "euclidean") {m : String}
    (hm : args.variogramModel = .name m) :
    ∃ s', OK.create env y x z { args with anisotropyAngle := 90 - args.anisotropyAngle } = .ok s' ∧
      s'.lags = s.lags ∧ s'.params = s.params ∧ s'.stats = s.stats ∧
      ∀ ea ea', Moved Prod.swap ea ea' → Admissible env args s ea.nClosest →
        NoTies ea.nClosest (queryAt ea) (fun p i => okDistance args p (x i, y i)) →
        ∀ r, s.execute env ea = .ok r → s'.execute env ea' = .ok r := by
  have e : affine2 (reflection 90) (0, 0) = Prod.swap := funext swap_affine
  obtain ⟨s', h', e1, e2, e3, hh⟩ := C17_mirror_ok h he hm 90 (0, 0) (x' := y) (y' := x) (fun i => (swap_affine (x i, y i)).symm)
  rw [e] at hh
  exact ⟨s', h', e1, e2, e3, hh⟩

/-- The same with a linear trend. -/
theorem C17_swap_uk {n : ℕ} {env : Env} {x y z : Fin n → ℝ} {args : UKArgs} {s : UK n}
    (h : UK.create env x y z args = .ok s) (hdt : ∀ t ∈ args.driftTerms, t = "regional_linear")
    (hp : args.pseudoInv = false) {m : String} (hm : args.variogramModel = .name m) (hsc : args.anisotropyScaling ≠ 0) :
    ∃ s', UK.create env y x z { args with anisotropyAngle := 90 - args.anisotropyAngle } = .ok s' ∧
      s'.lags = s.lags ∧ s'.params = s.params ∧ s'.stats = s.stats ∧
      ∀ ea ea', Moved Prod.swap ea.toExec ea'.toExec → ea'.spec = ea.spec →
        ∀ r, s.execute ea = .ok r → s'.execute ea' = .ok r := by
  have e : affine2 (reflection 90) (0, 0) = Prod.swap := funext swap_affine
  obtain ⟨s', h', e1, e2, e3, hh⟩ := C17_mirror_uk h hdt hp hm hsc 90 (0, 0) (x' := y) (y' := x)
    (fun i => (swap_affine (x i, y i)).symm)
  rw [e] at hh
  exact ⟨s', h', e1, e2, e3, hh⟩

/-! ### Examples -/

/-- The running example, reflected. -/
example : ∃ s r s', OK.create stdEnv Demo.X Demo.O ![3, 5] (Demo.args 1 true false) = .ok s ∧
    s.execute stdEnv (pointsCall [(0, 0), (2, 5)] "vectorized") = .ok r ∧
    OK.create stdEnv (fun i => (affine2 (reflection 30) 0 (Demo.X i, Demo.O i)).1)
      (fun i => (affine2 (reflection 30) 0 (Demo.X i, Demo.O i)).2) ![3, 5]
      { Demo.args 1 true false with anisotropyAngle := 30 - (Demo.args 1 true false).anisotropyAngle } = .ok s' ∧
    s'.execute stdEnv (pointsCall ([(0, 0), (2, 5)].map (affine2 (reflection 30) 0)) "vectorized") = .ok r := by
  obtain ⟨s, h, -⟩ := Demo.ok ![3, 5] 1 true false
  obtain ⟨ha, r, hr⟩ := Demo.ok_run zero_le_one h [(0, 0), (2, 5)] (b := "vectorized") (.inl rfl)
  obtain ⟨s', h', -, -, -, hh⟩ := C17_mirror_ok h rfl (m := "linear") rfl 30 0 (fun i => rfl)
  exact ⟨s, r, s', h, hr, h', hh _ _ (moved_points (affine2 (reflection 30) 0) [(0, 0), (2, 5)] "vectorized" none) ha
    (fun hn => absurd rfl hn) r hr⟩

/-- The running example with x and y exchanged. -/
example : ∃ s r s', OK.create stdEnv Demo.X Demo.O ![3, 5] (Demo.args 1 true false) = .ok s ∧
    s.execute stdEnv (pointsCall [(0, 0), (2, 5)] "vectorized") = .ok r ∧
    OK.create stdEnv Demo.O Demo.X ![3, 5]
      { Demo.args 1 true false with anisotropyAngle := 90 - (Demo.args 1 true false).anisotropyAngle } = .ok s' ∧
    s'.execute stdEnv (pointsCall [(0, 0), (5, 2)] "vectorized") = .ok r := by
  obtain ⟨s, h, -⟩ := Demo.ok ![3, 5] 1 true false
  obtain ⟨ha, r, hr⟩ := Demo.ok_run zero_le_one h [(0, 0), (2, 5)] (b := "vectorized") (.inl rfl)
  obtain ⟨s', h', -, -, -, hh⟩ := C17_swap_ok h rfl (m := "linear") rfl
  exact ⟨s, r, s', h, hr, h', hh _ _ (moved_points Prod.swap [(0, 0), (2, 5)] "vectorized" none) ha
    (fun hn => absurd rfl hn) r hr⟩

end
end PyKrige
