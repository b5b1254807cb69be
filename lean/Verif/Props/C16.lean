import Verif.Lemmas.OnlyDist
import Verif.Examples.Demo

/-!
# C16: the anisotropy correction rotates, then stretches distances, and does nothing else

C47 says that the kriging equations are set up with `Spec.okDistance` etc. of the *original* coordinates, that is
with `anisoDist2 scaling angle` (`distance3` in three dimensions); here are the properties of these distances, the
statement that nothing but the distances matters, and what follows for the results.
-/

set_option linter.unusedSectionVars false

namespace PyKrige
noncomputable section
open Matrix Spec

/-! ### The distances -/

/-- The adjusted coordinates computed by the program are at the specified distance, whatever the centre. -/
theorem C16_centre_2d (c : Fin 2 → ℝ) (sc an : ℝ) (p q : ℝ × ℝ) :
    euclid (adjust2 c sc an ![p.1, p.2]) (adjust2 c sc an ![q.1, q.2]) = anisoDist2 sc an p q :=
  adjust2_euclid c sc an p q

theorem C16_centre_3d (c : Fin 3 → ℝ) (an : Aniso3) (p q : ℝ × ℝ × ℝ) :
    euclid (adjust3 c ![an.scalingY, an.scalingZ] ![an.angleX, an.angleY, an.angleZ] ![p.1, p.2.1, p.2.2])
      (adjust3 c ![an.scalingY, an.scalingZ] ![an.angleX, an.angleY, an.angleZ] ![q.1, q.2.1, q.2.2]) =
      distance3 an p q := adjust3_euclid c an p q

/-- With scaling 1 it is the plain distance for every angle. -/
theorem C16_plain_2d (an : ℝ) (p q : ℝ × ℝ) :
    anisoDist2 1 an p q = Real.sqrt ((p.1 - q.1) ^ 2 + (p.2 - q.2) ^ 2) := by
  unfold anisoDist2
  have := Real.sin_sq_add_cos_sq (rad an)
  dsimp only
  congr 1
  linear_combination ((p.1 - q.1) ^ 2 + (p.2 - q.2) ^ 2) * this

theorem C16_plain_3d {an : Aniso3} (hy : an.scalingY = 1) (hz : an.scalingZ = 1) (p q : ℝ × ℝ × ℝ) :
    distance3 an p q = Real.sqrt ((p.1 - q.1) ^ 2 + (p.2.1 - q.2.1) ^ 2 + (p.2.2 - q.2.2) ^ 2) := by
  unfold distance3 rotX rotY rotZ
  have h1 := Real.sin_sq_add_cos_sq (rad an.angleX)
  have h2 := Real.sin_sq_add_cos_sq (rad an.angleY)
  have h3 := Real.sin_sq_add_cos_sq (rad an.angleZ)
  generalize Real.sin (rad an.angleX) = s1 at *
  generalize Real.cos (rad an.angleX) = c1 at *
  generalize Real.sin (rad an.angleY) = s2 at *
  generalize Real.cos (rad an.angleY) = c2 at *
  generalize Real.sin (rad an.angleZ) = s3 at *
  generalize Real.cos (rad an.angleZ) = c3 at *
  dsimp only [Prod.fst_sub, Prod.snd_sub]
  rw [hy, hz]
  congr 1
  generalize p.1 - q.1 = u
  generalize p.2.1 - q.2.1 = v
  generalize p.2.2 - q.2.2 = w
  have e1 : ∀ a b : ℝ, (c3 * a + s3 * b) ^ 2 + (1 * (-s3 * a + c3 * b)) ^ 2 = a ^ 2 + b ^ 2 := by
    intro a b; linear_combination (a ^ 2 + b ^ 2) * h3
  have e2 : ∀ a b : ℝ, (c2 * a - s2 * b) ^ 2 + (s2 * a + c2 * b) ^ 2 = a ^ 2 + b ^ 2 := by
    intro a b; linear_combination (a ^ 2 + b ^ 2) * h2
  have e3 : ∀ a b : ℝ, (c1 * a + s1 * b) ^ 2 + (-s1 * a + c1 * b) ^ 2 = a ^ 2 + b ^ 2 := by
    intro a b; linear_combination (a ^ 2 + b ^ 2) * h1
  rw [e1]
  linear_combination e2 u (-s1 * v + c1 * w) + e3 v w

theorem rad_period (an : ℝ) (k : ℤ) : rad (an + 360 * k) = rad an + k * (2 * Real.pi) := by
  unfold rad; ring

theorem sin_rad_period (an : ℝ) (k : ℤ) : Real.sin (rad (an + 360 * k)) = Real.sin (rad an) := by
  rw [rad_period, Real.sin_add_int_mul_two_pi]

theorem cos_rad_period (an : ℝ) (k : ℤ) : Real.cos (rad (an + 360 * k)) = Real.cos (rad an) := by
  rw [rad_period, Real.cos_add_int_mul_two_pi]

/-- Angles count modulo 360 degrees. -/
theorem C16_period_2d (sc an : ℝ) (k : ℤ) (p q : ℝ × ℝ) :
    anisoDist2 sc (an + 360 * k) p q = anisoDist2 sc an p q := by
  unfold anisoDist2
  rw [sin_rad_period, cos_rad_period]

/-- In the plane even modulo 180 degrees. -/
theorem C16_half_period_2d (sc an : ℝ) (p q : ℝ × ℝ) :
    anisoDist2 sc (an + 180) p q = anisoDist2 sc an p q := by
  have h : rad (an + 180) = rad an + Real.pi := by unfold rad; ring
  unfold anisoDist2
  rw [h, Real.sin_add_pi, Real.cos_add_pi]
  dsimp only
  congr 1
  ring

theorem C16_period_3d (an : Aniso3) (a b c : ℤ) (p q : ℝ × ℝ × ℝ) :
    distance3 { an with angleX := an.angleX + 360 * a, angleY := an.angleY + 360 * b, angleZ := an.angleZ + 360 * c }
      p q = distance3 an p q := by
  unfold distance3 rotX rotY rotZ
  simp only [sin_rad_period, cos_rad_period]

/-- Turning the frame by 90 degrees swaps the axes: stretching the second axis by `s` is, up to the overall factor
`s`, stretching the first one by `1/s`. -/
theorem C16_swap_axes (sc an : ℝ) (hs : 0 < sc) (p q : ℝ × ℝ) :
    anisoDist2 sc (an + 90) p q = sc * anisoDist2 (1 / sc) an p q := by
  have h : rad (an + 90) = rad an + Real.pi / 2 := by unfold rad; ring
  unfold anisoDist2
  rw [h, Real.sin_add_pi_div_two, Real.cos_add_pi_div_two]
  dsimp only
  rw [← Real.sqrt_sq hs.le, ← Real.sqrt_mul (by positivity), Real.sqrt_sq hs.le]
  congr 1
  field_simp
  ring

/-- It is a (pseudo)metric. -/
theorem C16_metric_2d (sc an : ℝ) (p q r : ℝ × ℝ) :
    0 ≤ anisoDist2 sc an p q ∧ anisoDist2 sc an p p = 0 ∧ anisoDist2 sc an p q = anisoDist2 sc an q p ∧
      anisoDist2 sc an p r ≤ anisoDist2 sc an p q + anisoDist2 sc an q r := by
  refine ⟨Real.sqrt_nonneg _, anisoDist2_self _ _ _, anisoDist2_comm _ _ _ _, ?_⟩
  rw [← adjust2_euclid 0, ← adjust2_euclid 0 sc an p q, ← adjust2_euclid 0 sc an q r, euclid_eq_dist,
    euclid_eq_dist, euclid_eq_dist]
  exact dist_triangle _ _ _

theorem C16_metric_3d (an : Aniso3) (p q r : ℝ × ℝ × ℝ) :
    0 ≤ distance3 an p q ∧ distance3 an p p = 0 ∧ distance3 an p q = distance3 an q p ∧
      distance3 an p r ≤ distance3 an p q + distance3 an q r := by
  refine ⟨Real.sqrt_nonneg _, distance3_self _ _, distance3_comm _ _ _, ?_⟩
  rw [← adjust3_euclid 0, ← adjust3_euclid 0 an p q, ← adjust3_euclid 0 an q r, euclid_eq_dist,
    euclid_eq_dist, euclid_eq_dist]
  exact dist_triangle _ _ _

/-- Different points are at a positive distance, unless a scaling is 0. -/
theorem C16_separates_2d {sc : ℝ} (hs : sc ≠ 0) (an : ℝ) {p q : ℝ × ℝ} (h : anisoDist2 sc an p q = 0) : p = q := by
  unfold anisoDist2 at h
  dsimp only at h
  rw [Real.sqrt_eq_zero (by positivity)] at h
  have := Real.sin_sq_add_cos_sq (rad an)
  generalize Real.sin (rad an) = S at *
  generalize Real.cos (rad an) = C at *
  have hu : C * (p.1 - q.1) + S * (p.2 - q.2) = 0 := by
    nlinarith [sq_nonneg (C * (p.1 - q.1) + S * (p.2 - q.2)), sq_nonneg (sc * (-S * (p.1 - q.1) + C * (p.2 - q.2)))]
  have hv : sc * (-S * (p.1 - q.1) + C * (p.2 - q.2)) = 0 := by rw [hu] at h; simpa using h
  have hv' : -S * (p.1 - q.1) + C * (p.2 - q.2) = 0 := by simpa [hs] using hv
  have h1 : p.1 - q.1 = 0 := by linear_combination C * hu - S * hv' - (p.1 - q.1) * this
  have h2 : p.2 - q.2 = 0 := by linear_combination S * hu + C * hv' - (p.2 - q.2) * this
  exact Prod.ext (by linarith) (by linarith)

/-- Scaling 1 and angle 0 leave the coordinates alone. -/
theorem C16_identity_2d (c p : Fin 2 → ℝ) : adjust2 c 1 0 p = p := adjust2_id c p

theorem C16_identity_3d (c p : Fin 3 → ℝ) : adjust3 c ![1, 1] ![0, 0, 0] p = p := adjust3_id c p

/-! ### Nothing but the distances matters -/

/-- `OrdinaryKriging`: other coordinates and another anisotropy with the same distances between the data give an
object with the same experimental variogram, parameters and fit statistics, and if the query points are moved
along, the same results.  (With a moving window: if no two data are equally far from a query point, as the KD-tree
may choose between them.) -/
theorem C16_only_distances_2d {n : ℕ} {env : Env} {x y z : Fin n → ℝ} {args : OKArgs} {s : OK n}
    (h : OK.create env x y z args = .ok s) {x' y' : Fin n → ℝ} {sc' an' : ℝ} {args' : OKArgs}
    (hargs : args' = { args with anisotropyScaling := sc', anisotropyAngle := an' })
    (hd : ∀ i j, okDistance args' (x' i, y' i) (x' j, y' j) = okDistance args (x i, y i) (x j, y j)) :
    ∃ s', OK.create env x' y' z args' = .ok s' ∧
      s'.lags = s.lags ∧ s'.params = s.params ∧ s'.stats = s.stats ∧
      ∀ (T : ℝ × ℝ → ℝ × ℝ), (∀ p i, okDistance args' (T p) (x' i, y' i) = okDistance args p (x i, y i)) →
      ∀ ea ea', Admissible env args s ea.nClosest → Moved T ea ea' →
        NoTies ea.nClosest (queryAt ea) (fun p i => okDistance args p (x i, y i)) →
        ∀ r, s.execute env ea = .ok r → s'.execute env ea' = .ok r := by
  subst hargs
  obtain ⟨s', h', e1, e2, e3, e4, e5, e6, e9, e7, el, es, e8, q1, q2⟩ :=
    OK.create_metric h x' y' sc' an' (fun i j => (hd i j).symm)
  refine ⟨s', h', el, e3, es, fun T hT ea ea' ha hm ht r hr => ?_⟩
  refine OK.same_distances h h' ha ha.noClash e1 e2 e3 e4 e5 e6 (Equiv.refl _) (fun i => by rw [e7]; rfl)
    (fun i j => by rw [e8]; rfl) e9 hm (fun p i => ?_) ?_ hr
  · rw [q1, q2]; exact hT p i
  · intro hn j p hp
    have := ht hn j p hp
    intro i i' hii
    beta_reduce at hii
    rw [q1, q1] at hii
    exact this hii

theorem C16_only_distances_3d {n : ℕ} {env : Env} {x y z v : Fin n → ℝ} {args : OK3DArgs} {s : OK3D n}
    (h : OK3D.create env x y z v args = .ok s) {x' y' z' : Fin n → ℝ} {an' : Aniso3} {args' : OK3DArgs}
    (hargs : args' = { args with aniso := an' })
    (hd : ∀ i j, ok3Distance args' (x' i, y' i, z' i) (x' j, y' j, z' j) =
      ok3Distance args (x i, y i, z i) (x j, y j, z j)) :
    ∃ s', OK3D.create env x' y' z' v args' = .ok s' ∧
      s'.lags = s.lags ∧ s'.params = s.params ∧ s'.stats = s.stats ∧
      ∀ (T : ℝ × ℝ × ℝ → ℝ × ℝ × ℝ),
        (∀ p i, ok3Distance args' (T p) (x' i, y' i, z' i) = ok3Distance args p (x i, y i, z i)) →
      ∀ ea ea', KnnSpec env → WindowFits n ea.nClosest → Moved3 T ea ea' →
        NoTies ea.nClosest (queryAt3 ea) (fun p i => ok3Distance args p (x i, y i, z i)) →
        ∀ r, s.execute env ea = .ok r → s'.execute env ea' = .ok r := by
  subst hargs
  obtain ⟨s', h', e1, e3, e5, e6, e7, el, es, e8, q1, q2⟩ :=
    OK3D.create_metric h x' y' z' an' (fun i j => (hd i j).symm)
  refine ⟨s', h', el, e3, es, fun T hT ea ea' hk hw hm ht r hr => ?_⟩
  refine OK3D.same_distances h h' hk hw e1 e3 e5 e6 (Equiv.refl _) (fun i => by rw [e7]; rfl)
    (fun i j => by rw [e8]; rfl) hm (fun p i => ?_) ?_ hr
  · rw [q1, q2]; exact hT p i
  · intro hn j p hp
    have := ht hn j p hp
    intro i i' hii
    beta_reduce at hii
    rw [q1, q1] at hii
    exact this hii

/-! ### Consequences for results -/

/-- With scaling 1 the angle has no effect on any result. -/
theorem C16_angle_irrelevant_2d {n : ℕ} {env : Env} {x y z : Fin n → ℝ} {args : OKArgs} {s : OK n}
    (h : OK.create env x y z args = .ok s) {m : String} (hm : args.variogramModel = .name m)
    (hs : args.anisotropyScaling = 1) (an' : ℝ) :
    ∃ s', OK.create env x y z { args with anisotropyAngle := an' } = .ok s' ∧
      s'.lags = s.lags ∧ s'.params = s.params ∧ s'.stats = s.stats ∧
      ∀ ea, Admissible env args s ea.nClosest →
        NoTies ea.nClosest (queryAt ea) (fun p i => okDistance args p (x i, y i)) →
        ∀ r, s.execute env ea = .ok r → s'.execute env ea = .ok r := by
  have key : ∀ p q, okDistance { args with anisotropyAngle := an' } p q = okDistance args p q := by
    intro p q
    unfold okDistance effScaling effAngle distance2
    simp only [hm, hs, C16_plain_2d]
  obtain ⟨s', h', e1, e2, e3, hh⟩ := C16_only_distances_2d h (x' := x) (y' := y) (sc' := args.anisotropyScaling)
    (an' := an') (args' := { args with anisotropyAngle := an' }) rfl (fun i j => key _ _)
  exact ⟨s', h', e1, e2, e3, fun ea ha ht r hr => hh id (fun p i => key _ _) ea ea ha (moved_id ea) ht r hr⟩

/-- Full turns of the angle have no effect on any result. -/
theorem C16_full_turn_2d {n : ℕ} {env : Env} {x y z : Fin n → ℝ} {args : OKArgs} {s : OK n}
    (h : OK.create env x y z args = .ok s) (k : ℤ) :
    ∃ s', OK.create env x y z { args with anisotropyAngle := args.anisotropyAngle + 360 * k } = .ok s' ∧
      s'.lags = s.lags ∧ s'.params = s.params ∧ s'.stats = s.stats ∧
      ∀ ea, Admissible env args s ea.nClosest →
        NoTies ea.nClosest (queryAt ea) (fun p i => okDistance args p (x i, y i)) →
        ∀ r, s.execute env ea = .ok r → s'.execute env ea = .ok r := by
  have key : ∀ p q, okDistance { args with anisotropyAngle := args.anisotropyAngle + 360 * k } p q =
      okDistance args p q := by
    intro p q
    unfold okDistance effScaling effAngle distance2
    dsimp only
    cases args.variogramModel with
    | name m => simp only [C16_period_2d]
    | gstools m => rfl
  obtain ⟨s', h', e1, e2, e3, hh⟩ := C16_only_distances_2d h (x' := x) (y' := y) (sc' := args.anisotropyScaling)
    (an' := args.anisotropyAngle + 360 * k)
    (args' := { args with anisotropyAngle := args.anisotropyAngle + 360 * k }) rfl (fun i j => key _ _)
  exact ⟨s', h', e1, e2, e3, fun ea ha ht r hr => hh id (fun p i => key _ _) ea ea ha (moved_id ea) ht r hr⟩

theorem C16_angle_irrelevant_3d {n : ℕ} {env : Env} {x y z v : Fin n → ℝ} {args : OK3DArgs} {s : OK3D n}
    (h : OK3D.create env x y z v args = .ok s) {m : String} (hm : args.variogramModel = .name m)
    (hy : args.aniso.scalingY = 1) (hz : args.aniso.scalingZ = 1) (aX aY aZ : ℝ) :
    ∃ s', OK3D.create env x y z v { args with
        aniso := { scalingY := 1, scalingZ := 1, angleX := aX, angleY := aY, angleZ := aZ } } = .ok s' ∧
      s'.lags = s.lags ∧ s'.params = s.params ∧ s'.stats = s.stats ∧
      ∀ ea, KnnSpec env → WindowFits n ea.nClosest →
        NoTies ea.nClosest (queryAt3 ea) (fun p i => ok3Distance args p (x i, y i, z i)) →
        ∀ r, s.execute env ea = .ok r → s'.execute env ea = .ok r := by
  have key : ∀ p q, ok3Distance { args with
      aniso := { scalingY := 1, scalingZ := 1, angleX := aX, angleY := aY, angleZ := aZ } } p q =
      ok3Distance args p q := by
    intro p q
    unfold ok3Distance effAniso
    simp only [hm]
    rw [C16_plain_3d hy hz, C16_plain_3d rfl rfl]
  obtain ⟨s', h', e1, e2, e3, hh⟩ := C16_only_distances_3d h (x' := x) (y' := y) (z' := z)
    (an' := { scalingY := 1, scalingZ := 1, angleX := aX, angleY := aY, angleZ := aZ }) rfl (fun i j => key _ _)
  exact ⟨s', h', e1, e2, e3, fun ea hk hw ht r hr => hh id (fun p i => key _ _) ea ea hk hw (moved_id3 ea) ht r hr⟩

theorem C16_full_turn_3d {n : ℕ} {env : Env} {x y z v : Fin n → ℝ} {args : OK3DArgs} {s : OK3D n}
    (h : OK3D.create env x y z v args = .ok s) (a b c : ℤ) {an' : Aniso3}
    (han : an' = { args.aniso with angleX := args.aniso.angleX + 360 * a, angleY := args.aniso.angleY + 360 * b, angleZ := args.aniso.angleZ + 360 * c }) :
    ∃ s', OK3D.create env x y z v { args with aniso := an' } = .ok s' ∧
      s'.lags = s.lags ∧ s'.params = s.params ∧ s'.stats = s.stats ∧
      ∀ ea, KnnSpec env → WindowFits n ea.nClosest →
        NoTies ea.nClosest (queryAt3 ea) (fun p i => ok3Distance args p (x i, y i, z i)) →
        ∀ r, s.execute env ea = .ok r → s'.execute env ea = .ok r := by
  have key : ∀ p q, ok3Distance { args with aniso := an' } p q = ok3Distance args p q := by
    intro p q
    subst han
    unfold ok3Distance effAniso
    cases args.variogramModel with
    | name m => exact C16_period_3d _ _ _ _ _ _
    | gstools m => rfl
  obtain ⟨s', h', e1, e2, e3, hh⟩ := C16_only_distances_3d h (x' := x) (y' := y) (z' := z)
    (an' := an') rfl (fun i j => key _ _)
  exact ⟨s', h', e1, e2, e3, fun ea hk hw ht r hr => hh id (fun p i => key _ _) ea ea hk hw (moved_id3 ea) ht r hr⟩

/-! ### Examples -/

/-- The distance with scaling 2 at angle 90 degrees of two points that differ in x is stretched. -/
example : anisoDist2 2 90 (3, 0) (0, 0) = 6 := by
  have h : rad 90 = Real.pi / 2 := by unfold rad; ring
  unfold anisoDist2
  rw [h, Real.sin_pi_div_two, Real.cos_pi_div_two]
  norm_num
  rw [show (36 : ℝ) = 6 ^ 2 by norm_num, Real.sqrt_sq (by norm_num)]

/-- The hypotheses of the theorems about results hold for the running example. -/
example : ∃ s r s', OK.create stdEnv Demo.X Demo.O ![3, 5] (Demo.args 1 true false) = .ok s ∧
    s.execute stdEnv (Demo.pts [(0, 0), (2, 5)] "vectorized") = .ok r ∧
    OK.create stdEnv Demo.X Demo.O ![3, 5] { Demo.args 1 true false with anisotropyAngle := 77 } = .ok s' ∧
    s'.execute stdEnv (Demo.pts [(0, 0), (2, 5)] "vectorized") = .ok r := by
  obtain ⟨s, h, -⟩ := Demo.ok ![3, 5] 1 true false
  obtain ⟨ha, r, hr⟩ := Demo.ok_run zero_le_one h [(0, 0), (2, 5)] (b := "vectorized") (.inl rfl)
  obtain ⟨s', h', -, -, -, hh⟩ := C16_angle_irrelevant_2d h (m := "linear") rfl rfl 77
  exact ⟨s, r, s', h, hr, h', hh _ ha (fun hn => absurd rfl hn) r hr⟩

end
end PyKrige
