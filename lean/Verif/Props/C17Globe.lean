import Verif.Props.C17
import Verif.Props.C57

/-!
# C17, geographic coordinates: turning or mirroring the globe

`OrdinaryKriging` with `coordinates_type="geographic"` sees only the points of the sphere its coordinates denote, and
these only up to a rotation or reflection of the sphere.
-/

namespace PyKrige
noncomputable section
open Spec

/-- Rotations and reflections of the globe keep great-circle distances. -/
theorem C17_distance_globe (R : EuclideanSpace ℝ (Fin 3) →ₗᵢ[ℝ] EuclideanSpace ℝ (Fin 3)) {p q p' q' : ℝ × ℝ}
    (hp : onSphere p' = R (onSphere p)) (hq : onSphere q' = R (onSphere q)) : sphereDist p' q' = sphereDist p q := by
  unfold sphereDist
  rw [hp, hq, R.angle_map]

/-- `OrdinaryKriging`: turning or mirroring the globe together with the data and the query points changes nothing: neither
the experimental variogram, nor a fitted model, the statistics, estimates or variances. -/
theorem C17_globe_ok {n : ℕ} {env : Env} {x y z : Fin n → ℝ} {args : OKArgs} {s : OK n}
    (h : OK.create env x y z args = .ok s) (he : args.coordinatesType = "geographic")
    (R : EuclideanSpace ℝ (Fin 3) →ₗᵢ[ℝ] EuclideanSpace ℝ (Fin 3)) {x' y' : Fin n → ℝ}
    (hxy : ∀ i, onSphere (x' i, y' i) = R (onSphere (x i, y i))) :
    ∃ s', OK.create env x' y' z args = .ok s' ∧
      s'.lags = s.lags ∧ s'.params = s.params ∧ s'.stats = s.stats ∧
      ∀ T : ℝ × ℝ → ℝ × ℝ, (∀ p, onSphere (T p) = R (onSphere p)) →
        ∀ ea ea', Moved T ea ea' → Admissible env args s ea.nClosest →
          NoTies ea.nClosest (queryAt ea) (fun p i => okDistance args p (x i, y i)) →
          ∀ r, s.execute env ea = .ok r → s'.execute env ea' = .ok r := by
  obtain ⟨s', h', e1, e2, e3, hh⟩ := C16_only_distances_2d h (x' := x') (y' := y')
    (sc' := args.anisotropyScaling) (an' := args.anisotropyAngle) (args' := args) rfl
    (fun i j => by
      rw [okDistance_sphere he, okDistance_sphere he]
      exact C17_distance_globe R (hxy i) (hxy j))
  refine ⟨s', h', e1, e2, e3, fun T hT ea ea' hm ha ht r hr => hh T (fun p i => ?_) ea ea' ha hm ht r hr⟩
  rw [okDistance_sphere he, okDistance_sphere he]
  exact C17_distance_globe R (hT p) (hxy i)

/-- In particular: other coordinates of the same places (longitudes wrapped datum by datum, any longitude at a pole). -/
theorem C17_sameplace_ok {n : ℕ} {env : Env} {x y z : Fin n → ℝ} {args : OKArgs} {s : OK n}
    (h : OK.create env x y z args = .ok s) (he : args.coordinatesType = "geographic") {x' y' : Fin n → ℝ}
    (hxy : ∀ i, onSphere (x' i, y' i) = onSphere (x i, y i)) :
    ∃ s', OK.create env x' y' z args = .ok s' ∧
      s'.lags = s.lags ∧ s'.params = s.params ∧ s'.stats = s.stats ∧
      ∀ ea, Admissible env args s ea.nClosest →
        NoTies ea.nClosest (queryAt ea) (fun p i => okDistance args p (x i, y i)) →
        ∀ r, s.execute env ea = .ok r → s'.execute env ea = .ok r := by
  obtain ⟨s', h', e1, e2, e3, hh⟩ := C17_globe_ok h he LinearIsometry.id hxy
  exact ⟨s', h', e1, e2, e3, fun ea ha ht r hr => hh id (fun p => rfl) ea ea (moved_id ea) ha ht r hr⟩

/-- Full turns denote the same place. -/
theorem onSphere_wrap (lon lat : ℝ) (k : ℤ) : onSphere (lon + k * 360, lat) = onSphere (lon, lat) := by
  have e : rad (lon + k * 360) = rad lon + k * (2 * Real.pi) := by unfold rad; ring
  unfold onSphere
  rw [e, Real.cos_add_int_mul_two_pi, Real.sin_add_int_mul_two_pi]

/-- All longitudes denote the same place at a pole. -/
theorem onSphere_pole (lon lon' : ℝ) : onSphere (lon, 90) = onSphere (lon', 90) := by
  have : Real.cos (rad 90) = 0 := by rw [rad_90]; exact Real.cos_pi_div_two
  unfold onSphere
  simp [this]

/-- The three data of C57 with longitude 360 for 0 and another longitude for the north pole. -/
example (z : Fin 3 → ℝ) : ∃ s r s', OK.create stdEnv Demo.polesX Demo.polesY z (Demo.geo "exponential" [1, 50, 0]) = .ok s ∧
    s.execute stdEnv (Demo.pts [(180, 0)] "vectorized") = .ok r ∧
    OK.create stdEnv ![0 + (1 : ℤ) * 360, 123, 0] Demo.polesY z (Demo.geo "exponential" [1, 50, 0]) = .ok s' ∧
    s'.execute stdEnv (Demo.pts [(180, 0)] "vectorized") = .ok r := by
  have hl : listMeaning "exponential" [1, 50, 0] = [1, 50, 0] := by simp [listMeaning]
  have hv : ValidOnSphere "exponential" [1, 50, 0] := .inr (.inr ⟨1, 50, 0, .inl rfl, rfl, by norm_num, by norm_num, le_rfl⟩)
  have hsep : SeparatesOnSphere "exponential" [1, 50, 0] fun i => (Demo.polesX i, Demo.polesY i) := by
    refine .inr ⟨⟨1, [50, 0], rfl, one_pos⟩, fun i j hij => fun e => ?_, ?_⟩
    · have := congrFun (congrFun poles_data i) j
      beta_reduce at this
      rw [sphereDist_zero.2 e] at this
      fin_cases i <;> fin_cases j <;> simp at hij this
    · rintro (h | ⟨_, _, h, -⟩) <;> simp at h
  obtain ⟨hv', γ, hb, -⟩ := hv.builtin
  obtain ⟨s, h, hps, hev, hname⟩ := geo_create stdEnv (by norm_num) Demo.polesX Demo.polesY z
    (Demo.geo "exponential" [1, 50, 0]) (by simp [Demo.geo]) (b := true) rfl rfl (m := "exponential") rfl
    (l := [1, 50, 0]) rfl (hl.symm ▸ hv') (γ := γ) (hl.symm ▸ hb) (.inl rfl)
  rw [hl] at hps hev
  have ha : Admissible stdEnv (Demo.geo "exponential" [1, 50, 0]) s none :=
    ⟨stdEnv_knn, trivial, by rw [hps, hname]; exact hv'.rangeOk, by intro k hk; cases hk⟩
  obtain ⟨r, hr⟩ := C57_execute (ea := Demo.pts [(180, 0)] "vectorized") h rfl (m := "exponential") rfl (hps ▸ hv)
    (hps ▸ hsep) ha (.inr (.inr ⟨rfl, by simp [Demo.pts]⟩)) (by intro k hk; cases hk) (.inr (.inl ⟨rfl, rfl⟩))
  obtain ⟨s', h', -, -, -, hh⟩ := C17_sameplace_ok h rfl (x' := ![0 + (1 : ℤ) * 360, 123, 0]) (y' := Demo.polesY) (by
    intro i
    fin_cases i
    · exact onSphere_wrap 0 _ 1
    · exact onSphere_pole 123 0
    · rfl)
  exact ⟨s, r, s', h, hr, h', hh _ ha (fun hn => absurd rfl hn) r hr⟩

/-- A mirrored globe: latitudes change sign. -/
example : ∃ R : EuclideanSpace ℝ (Fin 3) →ₗᵢ[ℝ] EuclideanSpace ℝ (Fin 3), ∀ p : ℝ × ℝ, onSphere (p.1, -p.2) = R (onSphere p) := by
  refine ⟨⟨⟨⟨fun v => !₂[v 0, v 1, -v 2], fun u v => ?_⟩, fun c v => ?_⟩, fun v => ?_⟩, fun p => ?_⟩
  · ext i; fin_cases i <;> simp; ring
  · ext i; fin_cases i <;> simp
  · rw [EuclideanSpace.norm_eq, EuclideanSpace.norm_eq]
    simp [Fin.sum_univ_three]
  · have : rad (-p.2) = -rad p.2 := by unfold rad; ring
    ext i
    fin_cases i <;> simp [onSphere, this]

end
end PyKrige
