import Verif.Props.C16
import Verif.Lemmas.Affine
import Verif.Examples.Demo

/-!
# C17: predictions follow the data under translations and rotations
-/

namespace PyKrige
noncomputable section
open Matrix Spec

/-- Counter-clockwise rotation of the plane by `φ` degrees. -/
def Spec.rotation (φ : ℝ) : Matrix (Fin 2) (Fin 2) ℝ :=
  !![Real.cos (rad φ), -Real.sin (rad φ); Real.sin (rad φ), Real.cos (rad φ)]

/-! ### The distances -/

/-- Turning both points and the anisotropy direction by the same angle (and shifting both points) keeps the
anisotropic distance. -/
theorem C17_distance_turns (sc an φ : ℝ) (t p q : ℝ × ℝ) :
    anisoDist2 sc (an + φ) (affine2 (rotation φ) t p) (affine2 (rotation φ) t q) = anisoDist2 sc an p q := by
  have h := Real.sin_sq_add_cos_sq (rad φ)
  have e : rad (an + φ) = rad an + rad φ := by unfold rad; ring
  unfold anisoDist2 affine2 rotation
  rw [e, Real.cos_add, Real.sin_add]
  simp
  generalize Real.sin (rad φ) = s at *
  generalize Real.cos (rad φ) = c at *
  generalize Real.sin (rad an) = u at *
  generalize Real.cos (rad an) = v at *
  have e1 : (v * c - u * s) * (c * p.1 + -(s * p.2) - (c * q.1 + -(s * q.2))) +
      (u * c + v * s) * (s * p.1 + c * p.2 - (s * q.1 + c * q.2)) = v * (p.1 - q.1) + u * (p.2 - q.2) := by
    linear_combination (v * (p.1 - q.1) + u * (p.2 - q.2)) * h
  have e2 : (-(u * c + v * s)) * (c * p.1 + -(s * p.2) - (c * q.1 + -(s * q.2))) +
      (v * c - u * s) * (s * p.1 + c * p.2 - (s * q.1 + c * q.2)) = -u * (p.1 - q.1) + v * (p.2 - q.2) := by
    linear_combination (-u * (p.1 - q.1) + v * (p.2 - q.2)) * h
  congr 1
  have e1' := congrArg (· ^ 2) e1
  have e2' := congrArg (fun w => sc ^ 2 * w ^ 2) e2
  beta_reduce at e1' e2'
  linear_combination e1' + e2'

/-- Shifting both points keeps the distance. -/
theorem C17_distance_shifts_2d (sc an : ℝ) (d p q : ℝ × ℝ) :
    anisoDist2 sc an (p + d) (q + d) = anisoDist2 sc an p q := by
  unfold anisoDist2; simp

theorem C17_distance_shifts_3d (an : Aniso3) (d p q : ℝ × ℝ × ℝ) :
    distance3 an (p + d) (q + d) = distance3 an p q := by
  unfold distance3; simp

/-- Without scaling every orthogonal map of space keeps the distance. -/
theorem C17_distance_orthogonal_3d {an : Aniso3} (hy : an.scalingY = 1) (hz : an.scalingZ = 1)
    {R : Matrix (Fin 3) (Fin 3) ℝ} (hR : Rᵀ * R = 1) (t p q : ℝ × ℝ × ℝ) :
    distance3 an (affine3 R t p) (affine3 R t q) = distance3 an p q := by
  rw [C16_plain_3d hy hz, C16_plain_3d hy hz]
  have e : ∀ i j, R 0 i * R 0 j + R 1 i * R 1 j + R 2 i * R 2 j = if i = j then 1 else 0 := by
    intro i j
    have := congrFun (congrFun hR i) j
    rw [Matrix.mul_apply, Matrix.one_apply, Fin.sum_univ_three] at this
    exact this
  have e00 := e 0 0; have e01 := e 0 1; have e02 := e 0 2; have e11 := e 1 1; have e12 := e 1 2; have e22 := e 2 2
  simp at e00 e01 e02 e11 e12 e22
  unfold affine3
  simp
  congr 1
  set a := p.1 - q.1
  set b := p.2.1 - q.2.1
  set c := p.2.2 - q.2.2
  linear_combination a ^ 2 * e00 + 2 * a * b * e01 + 2 * a * c * e02 + b ^ 2 * e11 + 2 * b * c * e12 + c ^ 2 * e22

/-- Great circle distances do not change if all longitudes are shifted. -/
theorem C17_distance_longitude (d : ℝ) (p q : ℝ × ℝ) :
    sphereDist (p + (d, 0)) (q + (d, 0)) = sphereDist p q := by
  have nrm : ∀ u : ℝ × ℝ, ‖onSphere u‖ = 1 := by
    intro u
    rw [EuclideanSpace.norm_eq, Fin.sum_univ_three]
    unfold onSphere
    simp only [Real.norm_eq_abs, sq_abs]
    simp
    have h1 := Real.sin_sq_add_cos_sq (rad u.1)
    have h2 := Real.sin_sq_add_cos_sq (rad u.2)
    linear_combination Real.cos (rad u.2) ^ 2 * h1 + h2
  unfold sphereDist InnerProductGeometry.angle
  rw [nrm, nrm, nrm, nrm]
  have : inner ℝ (onSphere (p + (d, 0))) (onSphere (q + (d, 0))) = inner ℝ (onSphere p) (onSphere q) := by
    have h := Real.sin_sq_add_cos_sq (rad d)
    have e : ∀ a, rad (a + d) = rad a + rad d := by intro a; unfold rad; ring
    rw [PiLp.inner_apply, PiLp.inner_apply, Fin.sum_univ_three, Fin.sum_univ_three]
    unfold onSphere
    simp [e, Real.cos_add, Real.sin_add]
    generalize Real.cos (rad p.1) = a
    generalize Real.sin (rad p.1) = b
    generalize Real.cos (rad q.1) = a'
    generalize Real.sin (rad q.1) = b'
    linear_combination Real.cos (rad p.2) * Real.cos (rad q.2) * (a * a' + b * b') * h
  rw [this]

/-! ### Ordinary kriging -/

/-- `OrdinaryKriging` with euclidean coordinates: shifting the data and the query points changes nothing. -/
theorem C17_shift_ok {n : ℕ} {env : Env} {x y z : Fin n → ℝ} {args : OKArgs} {s : OK n}
    (h : OK.create env x y z args = .ok s) (he : args.coordinatesType = "euclidean") (d : ℝ × ℝ) :
    ∃ s', OK.create env (fun i => x i + d.1) (fun i => y i + d.2) z args = .ok s' ∧
      s'.lags = s.lags ∧ s'.params = s.params ∧ s'.stats = s.stats ∧
      ∀ ea, Admissible env args s ea.nClosest →
        NoTies ea.nClosest (queryAt ea) (fun p i => okDistance args p (x i, y i)) →
        ∀ r, s.execute env ea = .ok r → s'.execute env (shifted ea d) = .ok r := by
  have key : ∀ p q, okDistance args (p + d) (q + d) = okDistance args p q := by
    intro p q
    unfold okDistance distance2
    rw [if_pos he, if_pos he, C17_distance_shifts_2d]
  obtain ⟨s', h', e1, e2, e3, hh⟩ := C16_only_distances_2d h (x' := fun i => x i + d.1) (y' := fun i => y i + d.2)
    (sc' := args.anisotropyScaling) (an' := args.anisotropyAngle) (args' := args) rfl
    (fun i j => key (x i, y i) (x j, y j))
  exact ⟨s', h', e1, e2, e3, fun ea ha ht r hr => hh (· + d) (fun p i => key p (x i, y i)) ea (shifted ea d) ha
    (moved_shifted ea d) ht r hr⟩

/-- `OrdinaryKriging` with geographic coordinates: shifting all longitudes changes nothing. -/
theorem C17_longitude_ok {n : ℕ} {env : Env} {x y z : Fin n → ℝ} {args : OKArgs} {s : OK n}
    (h : OK.create env x y z args = .ok s) (he : args.coordinatesType = "geographic") (d : ℝ) :
    ∃ s', OK.create env (fun i => x i + d) y z args = .ok s' ∧
      s'.lags = s.lags ∧ s'.params = s.params ∧ s'.stats = s.stats ∧
      ∀ ea, Admissible env args s ea.nClosest →
        NoTies ea.nClosest (queryAt ea) (fun p i => okDistance args p (x i, y i)) →
        ∀ r, s.execute env ea = .ok r → s'.execute env (shifted ea (d, 0)) = .ok r := by
  have key : ∀ p q, okDistance args (p + (d, 0)) (q + (d, 0)) = okDistance args p q := by
    intro p q
    unfold okDistance distance2
    rw [if_neg (by rw [he]; decide), if_neg (by rw [he]; decide), C17_distance_longitude]
  have key' : ∀ (p : ℝ × ℝ) (i : Fin n), okDistance args (p + (d, 0)) (x i + d, y i) = okDistance args p (x i, y i) := by
    intro p i
    rw [← key p (x i, y i), show (x i, y i) + (d, (0 : ℝ)) = (x i + d, y i) by simp]
  obtain ⟨s', h', e1, e2, e3, hh⟩ := C16_only_distances_2d h (x' := fun i => x i + d) (y' := y)
    (sc' := args.anisotropyScaling) (an' := args.anisotropyAngle) (args' := args) rfl
    (fun i j => by rw [← key (x i, y i) (x j, y j), Prod.mk_add_mk, Prod.mk_add_mk, add_zero, add_zero])
  exact ⟨s', h', e1, e2, e3, fun ea ha ht r hr => hh (· + (d, 0)) key' ea (shifted ea (d, 0)) ha
    (moved_shifted ea (d, 0)) ht r hr⟩

/-- `OrdinaryKriging`: turning (and shifting) the data, the query points and the anisotropy direction changes
nothing. -/
theorem C17_rotate_ok {n : ℕ} {env : Env} {x y z : Fin n → ℝ} {args : OKArgs} {s : OK n}
    (h : OK.create env x y z args = .ok s) (he : args.coordinatesType = "euclidean") {m : String}
    (hm : args.variogramModel = .name m) (φ : ℝ) (t : ℝ × ℝ) {x' y' : Fin n → ℝ}
    (hxy : ∀ i, (x' i, y' i) = affine2 (rotation φ) t (x i, y i)) :
    ∃ s', OK.create env x' y' z { args with anisotropyAngle := args.anisotropyAngle + φ } = .ok s' ∧
      s'.lags = s.lags ∧ s'.params = s.params ∧ s'.stats = s.stats ∧
      ∀ ea ea', Moved (affine2 (rotation φ) t) ea ea' → Admissible env args s ea.nClosest →
        NoTies ea.nClosest (queryAt ea) (fun p i => okDistance args p (x i, y i)) →
        ∀ r, s.execute env ea = .ok r → s'.execute env ea' = .ok r := by
  have key : ∀ p q, okDistance { args with anisotropyAngle := args.anisotropyAngle + φ }
      (affine2 (rotation φ) t p) (affine2 (rotation φ) t q) = okDistance args p q := by
    intro p q
    unfold okDistance distance2 effScaling effAngle
    simp only [hm]
    rw [if_pos he, if_pos he, C17_distance_turns]
  obtain ⟨s', h', e1, e2, e3, hh⟩ := C16_only_distances_2d h (x' := x') (y' := y')
    (sc' := args.anisotropyScaling) (an' := args.anisotropyAngle + φ)
    (args' := { args with anisotropyAngle := args.anisotropyAngle + φ }) rfl
    (fun i j => by rw [hxy, hxy, key])
  exact ⟨s', h', e1, e2, e3, fun ea ea' hmv ha ht r hr => hh (affine2 (rotation φ) t)
    (fun p i => by rw [hxy, key]) ea ea' ha hmv ht r hr⟩

/-- `OrdinaryKriging`, isotropic: turning (and shifting) the data and the query points changes nothing. -/
theorem C17_rotate_isotropic_ok {n : ℕ} {env : Env} {x y z : Fin n → ℝ} {args : OKArgs} {s : OK n}
    (h : OK.create env x y z args = .ok s) (he : args.coordinatesType = "euclidean")
    (hs : effScaling args.variogramModel args.anisotropyScaling = 1) (φ : ℝ) (t : ℝ × ℝ) {x' y' : Fin n → ℝ}
    (hxy : ∀ i, (x' i, y' i) = affine2 (rotation φ) t (x i, y i)) :
    ∃ s', OK.create env x' y' z args = .ok s' ∧
      s'.lags = s.lags ∧ s'.params = s.params ∧ s'.stats = s.stats ∧
      ∀ ea ea', Moved (affine2 (rotation φ) t) ea ea' → Admissible env args s ea.nClosest →
        NoTies ea.nClosest (queryAt ea) (fun p i => okDistance args p (x i, y i)) →
        ∀ r, s.execute env ea = .ok r → s'.execute env ea' = .ok r := by
  have key : ∀ p q, okDistance args (affine2 (rotation φ) t p) (affine2 (rotation φ) t q) = okDistance args p q := by
    intro p q
    unfold okDistance distance2
    rw [if_pos he, if_pos he, hs, ← C17_distance_turns 1 _ φ t p q, C16_plain_2d, C16_plain_2d]
  obtain ⟨s', h', e1, e2, e3, hh⟩ := C16_only_distances_2d h (x' := x') (y' := y')
    (sc' := args.anisotropyScaling) (an' := args.anisotropyAngle)
    (args' := args) rfl (fun i j => by rw [hxy, hxy, key])
  exact ⟨s', h', e1, e2, e3, fun ea ea' hmv ha ht r hr => hh (affine2 (rotation φ) t)
    (fun p i => by rw [hxy, key]) ea ea' ha hmv ht r hr⟩

/-- `OrdinaryKriging3D`: shifting the data and the query points changes nothing. -/
theorem C17_shift_ok3 {n : ℕ} {env : Env} {x y z v : Fin n → ℝ} {args : OK3DArgs} {s : OK3D n}
    (h : OK3D.create env x y z v args = .ok s) (d : ℝ × ℝ × ℝ) :
    ∃ s', OK3D.create env (fun i => x i + d.1) (fun i => y i + d.2.1) (fun i => z i + d.2.2) v args = .ok s' ∧
      s'.lags = s.lags ∧ s'.params = s.params ∧ s'.stats = s.stats ∧
      ∀ ea, KnnSpec env → WindowFits n ea.nClosest →
        NoTies ea.nClosest (queryAt3 ea) (fun p i => ok3Distance args p (x i, y i, z i)) →
        ∀ r, s.execute env ea = .ok r → s'.execute env (shifted3 ea d) = .ok r := by
  have key : ∀ p q, ok3Distance args (p + d) (q + d) = ok3Distance args p q :=
    fun p q => C17_distance_shifts_3d _ _ _ _
  obtain ⟨s', h', e1, e2, e3, hh⟩ := C16_only_distances_3d h (x' := fun i => x i + d.1)
    (y' := fun i => y i + d.2.1) (z' := fun i => z i + d.2.2) (an' := args.aniso) (args' := args) rfl
    (fun i j => key (x i, y i, z i) (x j, y j, z j))
  exact ⟨s', h', e1, e2, e3, fun ea hk hw ht r hr => hh (· + d) (fun p i => key p (x i, y i, z i)) ea
    (shifted3 ea d) hk hw (moved_shifted3 ea d) ht r hr⟩

/-- `OrdinaryKriging3D`, isotropic: any orthogonal map and shift of the data and the query points changes
nothing. -/
theorem C17_rotate_isotropic_ok3 {n : ℕ} {env : Env} {x y z v : Fin n → ℝ} {args : OK3DArgs} {s : OK3D n}
    (h : OK3D.create env x y z v args = .ok s)
    (hy : (effAniso args.variogramModel args.aniso).scalingY = 1)
    (hz : (effAniso args.variogramModel args.aniso).scalingZ = 1)
    {R : Matrix (Fin 3) (Fin 3) ℝ} (hR : Rᵀ * R = 1) (t : ℝ × ℝ × ℝ) {x' y' z' : Fin n → ℝ}
    (hxy : ∀ i, (x' i, y' i, z' i) = affine3 R t (x i, y i, z i)) :
    ∃ s', OK3D.create env x' y' z' v args = .ok s' ∧
      s'.lags = s.lags ∧ s'.params = s.params ∧ s'.stats = s.stats ∧
      ∀ ea ea', Moved3 (affine3 R t) ea ea' → KnnSpec env → WindowFits n ea.nClosest →
        NoTies ea.nClosest (queryAt3 ea) (fun p i => ok3Distance args p (x i, y i, z i)) →
        ∀ r, s.execute env ea = .ok r → s'.execute env ea' = .ok r := by
  have key : ∀ p q, ok3Distance args (affine3 R t p) (affine3 R t q) = ok3Distance args p q :=
    fun p q => C17_distance_orthogonal_3d hy hz hR t p q
  obtain ⟨s', h', e1, e2, e3, hh⟩ := C16_only_distances_3d h (x' := x') (y' := y') (z' := z')
    (an' := args.aniso) (args' := args) rfl (fun i j => by rw [hxy, hxy, key])
  exact ⟨s', h', e1, e2, e3, fun ea ea' hmv hk hw ht r hr => hh (affine3 R t)
    (fun p i => by rw [hxy, key]) ea ea' hk hw hmv ht r hr⟩

/-! ### Universal kriging -/

/-- `UniversalKriging`: shifting the data, the query points, the wells, the axes of the external drift grid and
the functional drift terms changes nothing.  (With `pseudo_inv=True` this is claimed only without the regional
linear drift: the Moore–Penrose inverse of a singular matrix depends on the origin of the coordinates.) -/
theorem C17_shift_uk {n : ℕ} {env : Env} {x y z : Fin n → ℝ} {args : UKArgs} {s : UK n}
    (h : UK.create env x y z args = .ok s)
    (hp : args.pseudoInv = false ∨ "regional_linear" ∉ args.driftTerms) (d : ℝ × ℝ) :
    ∃ s', UK.create env (fun i => x i + d.1) (fun i => y i + d.2) z (shiftedUK args d) = .ok s' ∧
      s'.lags = s.lags ∧ s'.params = s.params ∧ s'.stats = s.stats ∧
      ∀ ea r, s.execute ea = .ok r →
        s'.execute { ea with toExec := shifted ea.toExec d } = .ok r := by
  refine ⟨s.shift d, UK.create_shift h d, rfl, rfl, rfl, fun ea r hr => ?_⟩
  obtain ⟨hp', exact, name, model, fArg, pArg, sc, an, f, fname, xc, yc, vp, lags, ps, stats, ext, plog, spec,
    func, h1, h2, h3, h4, h5, h6, h7, h8, h9, h10, h11, h12, rfl⟩ := UK.create_ok h
  exact UK.shift_execute hp' (hp.imp id fun hd => decide_eq_false hd) d hr

theorem C17_shift_uk3 {n : ℕ} {env : Env} {x y z v : Fin n → ℝ} {args : UK3DArgs} {s : UK3D n}
    (h : UK3D.create env x y z v args = .ok s)
    (hp : args.pseudoInv = false ∨ "regional_linear" ∉ args.driftTerms) (d : ℝ × ℝ × ℝ) :
    ∃ s', UK3D.create env (fun i => x i + d.1) (fun i => y i + d.2.1) (fun i => z i + d.2.2) v (shiftedUK3 args d) =
        .ok s' ∧
      s'.lags = s.lags ∧ s'.params = s.params ∧ s'.stats = s.stats ∧
      ∀ ea r, s.execute ea = .ok r →
        s'.execute { ea with toExec := shifted3 ea.toExec d } = .ok r := by
  refine ⟨s.shift d, UK3D.create_shift h d, rfl, rfl, rfl, fun ea r hr => ?_⟩
  obtain ⟨hp', exact, name, model, fArg, pArg, an, f, fname, xc, yc, zc, vp, lags, ps, stats, spec, func,
    h1, h2, h3, h4, h5, h6, h7, h8, h9, h10, h11, rfl⟩ := UK3D.create_ok h
  exact UK3D.shift_execute hp' (hp.imp id fun hd => decide_eq_false hd) d hr

/-- `UniversalKriging` with no drift but the regional linear one: every affine map of the data and the query
points that, together with a change of the anisotropy, keeps the distances changes nothing. -/
theorem C17_affine_uk {n : ℕ} {env : Env} {x y z : Fin n → ℝ} {args : UKArgs} {s : UK n}
    (h : UK.create env x y z args = .ok s) (hdt : ∀ t ∈ args.driftTerms, t = "regional_linear")
    (hp : args.pseudoInv = false) (hsc : effScaling args.variogramModel args.anisotropyScaling ≠ 0)
    {sc' an' : ℝ} {args' : UKArgs} (hargs : args' = { args with anisotropyScaling := sc', anisotropyAngle := an' })
    {R : Matrix (Fin 2) (Fin 2) ℝ} {t : ℝ × ℝ}
    (hd : ∀ p q, ukDistance args' (affine2 R t p) (affine2 R t q) = ukDistance args p q) {x' y' : Fin n → ℝ}
    (hxy : ∀ i, (x' i, y' i) = affine2 R t (x i, y i)) :
    ∃ s', UK.create env x' y' z args' = .ok s' ∧
      s'.lags = s.lags ∧ s'.params = s.params ∧ s'.stats = s.stats ∧
      ∀ ea ea', Moved (affine2 R t) ea.toExec ea'.toExec → ea'.spec = ea.spec →
        ∀ r, s.execute ea = .ok r → s'.execute ea' = .ok r := by
  subst hargs
  obtain ⟨s', h', e1, e2, e3, e4, e5, e6, e7, e8, e9, hn, hn'⟩ := UK.create_metric h hdt x' y' sc' an'
    (fun i j => by rw [hxy, hxy]; exact (hd _ _).symm)
  refine ⟨s', h', e7, e2, e8, fun ea ea' hm hsp r hr => ?_⟩
  obtain ⟨hpl, hx, hy, -⟩ := UK.create_placed h
  obtain ⟨hpl', hx', hy', -⟩ := UK.create_placed h'
  obtain ⟨a1, a2⟩ := UK.create_aniso h
  obtain ⟨a1', a2'⟩ := UK.create_aniso h'
  have hpt : s.pseudoInvType ∈ ["pinv", "pinvh"] ∧ s.pseudoInv = args.pseudoInv := by
    obtain ⟨hp', exact, name, model, fArg, pArg, sc, an, f, fname, xc, yc, vp, lags, ps, stats, ext, plog, spec,
      func, h1, h2, h3, h4, h5, h6, h7, h8, h9, h10, h11, h12, rfl⟩ := UK.create_ok h
    exact ⟨hp', rfl⟩
  refine UK.affine_execute hpl hpl' hpt.1 (hpt.2.trans hp) (by rw [a1]; exact hsc)
    (R := R) (t := t) (fun p q => ?_) (fun i => ?_) e1 e2 e3 e4 e5 e6 e9 hn hn' hm hsp hr
  · rw [a1, a2, a1', a2']; exact hd p q
  · rw [hx, hy, hx', hy']; exact hxy i

theorem C17_affine_uk3 {n : ℕ} {env : Env} {x y z v : Fin n → ℝ} {args : UK3DArgs} {s : UK3D n}
    (h : UK3D.create env x y z v args = .ok s) (hdt : ∀ t ∈ args.driftTerms, t = "regional_linear")
    (hp : args.pseudoInv = false) (hsc : (effAniso args.variogramModel args.aniso).scalingY ≠ 0 ∧
      (effAniso args.variogramModel args.aniso).scalingZ ≠ 0)
    {an' : Aniso3} {args' : UK3DArgs} (hargs : args' = { args with aniso := an' })
    {R : Matrix (Fin 3) (Fin 3) ℝ} {t : ℝ × ℝ × ℝ}
    (hd : ∀ p q, uk3Distance args' (affine3 R t p) (affine3 R t q) = uk3Distance args p q) {x' y' z' : Fin n → ℝ}
    (hxy : ∀ i, (x' i, y' i, z' i) = affine3 R t (x i, y i, z i)) :
    ∃ s', UK3D.create env x' y' z' v args' = .ok s' ∧
      s'.lags = s.lags ∧ s'.params = s.params ∧ s'.stats = s.stats ∧
      ∀ ea ea', Moved3 (affine3 R t) ea.toExec ea'.toExec → ea'.spec = ea.spec →
        ∀ r, s.execute ea = .ok r → s'.execute ea' = .ok r := by
  subst hargs
  obtain ⟨s', h', e1, e2, e3, e4, e5, e6, e7, e8, e9, hn, hn'⟩ := UK3D.create_metric h hdt x' y' z' an'
    (fun i j => by rw [hxy, hxy]; exact (hd _ _).symm)
  refine ⟨s', h', e7, e2, e8, fun ea ea' hm hsp r hr => ?_⟩
  obtain ⟨hpl, hx, hy, hz, -⟩ := UK3D.create_placed h
  obtain ⟨hpl', hx', hy', hz', -⟩ := UK3D.create_placed h'
  have a1 := UK3D.create_aniso h
  have a1' := UK3D.create_aniso h'
  have hpt : s.pseudoInvType ∈ ["pinv", "pinvh"] ∧ s.pseudoInv = args.pseudoInv := by
    obtain ⟨hp', exact, name, model, fArg, pArg, an, f, fname, xc, yc, zc, vp, lags, ps, stats, spec, func,
      h1, h2, h3, h4, h5, h6, h7, h8, h9, h10, h11, rfl⟩ := UK3D.create_ok h
    exact ⟨hp', rfl⟩
  refine UK3D.affine_execute hpl hpl' hpt.1 (hpt.2.trans hp) (by rw [a1]; exact hsc)
    (R := R) (t := t) (fun p q => ?_) (fun i => ?_) e1 e2 e3 e4 e5 e6 e9 hn hn' hm hsp hr
  · rw [a1, a1']; exact hd p q
  · rw [hx, hy, hz, hx', hy', hz']; exact hxy i

/-- In particular: rotations of the plane, with the anisotropy turned along. -/
theorem C17_rotate_uk {n : ℕ} {env : Env} {x y z : Fin n → ℝ} {args : UKArgs} {s : UK n}
    (h : UK.create env x y z args = .ok s) (hdt : ∀ t ∈ args.driftTerms, t = "regional_linear")
    (hp : args.pseudoInv = false) {m : String} (hm : args.variogramModel = .name m) (hsc : args.anisotropyScaling ≠ 0)
    (φ : ℝ) (t : ℝ × ℝ) {x' y' : Fin n → ℝ} (hxy : ∀ i, (x' i, y' i) = affine2 (rotation φ) t (x i, y i)) :
    ∃ s', UK.create env x' y' z { args with anisotropyAngle := args.anisotropyAngle + φ } = .ok s' ∧
      s'.lags = s.lags ∧ s'.params = s.params ∧ s'.stats = s.stats ∧
      ∀ ea ea', Moved (affine2 (rotation φ) t) ea.toExec ea'.toExec → ea'.spec = ea.spec →
        ∀ r, s.execute ea = .ok r → s'.execute ea' = .ok r := by
  refine C17_affine_uk h hdt hp (by rw [hm]; exact hsc) (sc' := args.anisotropyScaling)
    (an' := args.anisotropyAngle + φ) rfl (fun p q => ?_) hxy
  unfold ukDistance effScaling effAngle
  simp only [hm]
  exact C17_distance_turns _ _ _ _ _ _

/-- In particular: orthogonal maps of space, isotropic. -/
theorem C17_rotate_isotropic_uk3 {n : ℕ} {env : Env} {x y z v : Fin n → ℝ} {args : UK3DArgs} {s : UK3D n}
    (h : UK3D.create env x y z v args = .ok s) (hdt : ∀ t ∈ args.driftTerms, t = "regional_linear")
    (hp : args.pseudoInv = false) (hy : (effAniso args.variogramModel args.aniso).scalingY = 1)
    (hz : (effAniso args.variogramModel args.aniso).scalingZ = 1)
    {R : Matrix (Fin 3) (Fin 3) ℝ} (hR : Rᵀ * R = 1) (t : ℝ × ℝ × ℝ) {x' y' z' : Fin n → ℝ}
    (hxy : ∀ i, (x' i, y' i, z' i) = affine3 R t (x i, y i, z i)) :
    ∃ s', UK3D.create env x' y' z' v args = .ok s' ∧
      s'.lags = s.lags ∧ s'.params = s.params ∧ s'.stats = s.stats ∧
      ∀ ea ea', Moved3 (affine3 R t) ea.toExec ea'.toExec → ea'.spec = ea.spec →
        ∀ r, s.execute ea = .ok r → s'.execute ea' = .ok r :=
  C17_affine_uk3 h hdt hp ⟨by rw [hy]; exact one_ne_zero, by rw [hz]; exact one_ne_zero⟩ (an' := args.aniso) rfl
    (fun p q => C17_distance_orthogonal_3d hy hz hR t p q) hxy

/-! ### Examples -/

/-- The running example, shifted by (7, -3). -/
example : ∃ s r s', OK.create stdEnv Demo.X Demo.O ![3, 5] (Demo.args 1 true false) = .ok s ∧
    s.execute stdEnv (Demo.pts [(0, 0), (2, 5)] "vectorized") = .ok r ∧
    OK.create stdEnv (fun i => Demo.X i + 7) (fun i => Demo.O i + -3) ![3, 5] (Demo.args 1 true false) = .ok s' ∧
    s'.execute stdEnv (shifted (Demo.pts [(0, 0), (2, 5)] "vectorized") (7, -3)) = .ok r := by
  obtain ⟨s, h, -⟩ := Demo.ok ![3, 5] 1 true false
  obtain ⟨ha, r, hr⟩ := Demo.ok_run zero_le_one h [(0, 0), (2, 5)] (b := "vectorized") (.inl rfl)
  obtain ⟨s', h', -, -, -, hh⟩ := C17_shift_ok h rfl (7, -3)
  exact ⟨s, r, s', h, hr, h', hh _ ha (fun hn => absurd rfl hn) r hr⟩

/-- The running example, turned by 30 degrees. -/
example : ∃ s r s', OK.create stdEnv Demo.X Demo.O ![3, 5] (Demo.args 1 true false) = .ok s ∧
    s.execute stdEnv (pointsCall [(0, 0), (2, 5)] "vectorized") = .ok r ∧
    OK.create stdEnv (fun i => (affine2 (rotation 30) 0 (Demo.X i, Demo.O i)).1)
      (fun i => (affine2 (rotation 30) 0 (Demo.X i, Demo.O i)).2) ![3, 5]
      { Demo.args 1 true false with anisotropyAngle := (Demo.args 1 true false).anisotropyAngle + 30 } = .ok s' ∧
    s'.execute stdEnv (pointsCall ([(0, 0), (2, 5)].map (affine2 (rotation 30) 0)) "vectorized") = .ok r := by
  obtain ⟨s, h, -⟩ := Demo.ok ![3, 5] 1 true false
  obtain ⟨ha, r, hr⟩ := Demo.ok_run zero_le_one h [(0, 0), (2, 5)] (b := "vectorized") (.inl rfl)
  obtain ⟨s', h', -, -, -, hh⟩ := C17_rotate_ok h rfl (m := "linear") rfl 30 0 (fun i => rfl)
  exact ⟨s, r, s', h, hr, h', hh _ _ (moved_points (affine2 (rotation 30) 0) [(0, 0), (2, 5)] "vectorized" none) ha
    (fun hn => absurd rfl hn) r hr⟩

/-- Universal kriging, shifted. -/
example : ∃ s r s', UK.create stdEnv Demo.X Demo.O ![3, 5] (Demo.uargs 1 true false) = .ok s ∧
    s.execute { toExec := Demo.pts [(0, 0), (2, 5)] "loop" } = .ok r ∧
    UK.create stdEnv (fun i => Demo.X i + 7) (fun i => Demo.O i + -3) ![3, 5]
      (shiftedUK (Demo.uargs 1 true false) (7, -3)) = .ok s' ∧
    s'.execute { toExec := shifted (Demo.pts [(0, 0), (2, 5)] "loop") (7, -3) } = .ok r := by
  obtain ⟨s, h, -⟩ := Demo.uk ![3, 5] 1 true false
  obtain ⟨r, hr⟩ := Demo.uk_run h [(0, 0), (2, 5)] (b := "loop") (.inr rfl)
  obtain ⟨s', h', -, -, -, hh⟩ := C17_shift_uk h (.inl rfl) (7, -3)
  exact ⟨s, r, s', h, hr, h', hh _ r hr⟩

end
end PyKrige
